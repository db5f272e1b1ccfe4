import Verif.Lemmas.Grammar
/-
Helper lemmas for C61 to C63: queries.
-/
namespace Maho
open P Maho.Spec

/-- What can follow a list of items of `FROM`. -/
def listEnd : Token → Bool
  | .endOfStatement => true
  | .rune r => r == 41
  | .reserved id => id ∈ [Kw.WHERE, Kw.GROUP, Kw.HAVING, Kw.ORDER]
  | _ => false

/-- What can follow an item of `FROM`. -/
def fromEnd (b : Bool) : Token → Bool
  | .endOfStatement => true
  | .rune r => r == 44 || r == 41
  | .reserved id => id ∈ [Kw.WHERE, Kw.GROUP, Kw.HAVING, Kw.ORDER] || b && id ∈ [Kw.ON, Kw.USING]
  | _ => false

/-- What can follow an item of `FROM` that is not a join. -/
def partEnd : Token → Bool
  | .endOfStatement => true
  | .rune r => r == 44 || r == 41
  | .reserved id => id ∈ [Kw.WHERE, Kw.GROUP, Kw.HAVING, Kw.ORDER, Kw.ON, Kw.USING, Kw.JOIN, Kw.INNER,
      Kw.LEFT, Kw.RIGHT, Kw.FULL, Kw.CROSS]
  | _ => false

/-- What can follow a table, before its alias. -/
def tableEnd : Token → Bool
  | .identifier _ => true
  | .reserved id => id == Kw.AS || partEnd (.reserved id)
  | t => partEnd t

/-- What can follow a table, before an index. -/
def nameEnd (t : Token) : Bool := t == Tok.atSign || tableEnd t

/-- What can follow a result of `SELECT`. -/
def resultEnd : Token → Bool
  | .endOfStatement => true
  | .rune r => r == 44 || r == 41
  | .reserved id => id ∈ [Kw.FROM, Kw.WHERE, Kw.GROUP, Kw.HAVING, Kw.ORDER]
  | _ => false

theorem fair_listEnd : IsFair listEnd := ⟨rfl, rfl⟩
theorem fair_fromEnd (b : Bool) : IsFair (fromEnd b) := ⟨rfl, rfl⟩
theorem fair_partEnd : IsFair partEnd := ⟨rfl, rfl⟩
theorem fair_tableEnd : IsFair tableEnd := ⟨rfl, rfl⟩
theorem fair_nameEnd : IsFair nameEnd := ⟨rfl, rfl⟩
theorem fair_resultEnd : IsFair resultEnd := ⟨rfl, rfl⟩

theorem fromEnd_listEnd (b : Bool) {t : Token} (h : listEnd t = true) : fromEnd b t = true := by
  cases t <;> simp_all [listEnd, fromEnd]

theorem fromEnd_mem {b : Bool} {id : Identifier} (h : fromEnd b (.reserved id) = true) :
    id ∈ [Kw.WHERE, Kw.GROUP, Kw.HAVING, Kw.ORDER, Kw.ON, Kw.USING] := by
  have h : (decide (id ∈ [Kw.WHERE, Kw.GROUP, Kw.HAVING, Kw.ORDER]) ||
    b && decide (id ∈ [Kw.ON, Kw.USING])) = true := h
  rw [Bool.or_eq_true, Bool.and_eq_true, decide_eq_true_eq, decide_eq_true_eq] at h
  have e : [Kw.WHERE, Kw.GROUP, Kw.HAVING, Kw.ORDER, Kw.ON, Kw.USING] =
    [Kw.WHERE, Kw.GROUP, Kw.HAVING, Kw.ORDER] ++ [Kw.ON, Kw.USING] := rfl
  rw [e, List.mem_append]
  exact h.imp_right And.right

theorem reserved_all {l : List Identifier} {f : Token → Bool}
    (h : l.all (fun id => f (.reserved id)) = true) {id : Identifier} (hm : id ∈ l) :
    f (.reserved id) = true := List.all_eq_true.1 h id hm

theorem partEnd_fromEnd {b : Bool} {t : Token} (h : fromEnd b t = true) : partEnd t = true := by
  cases t with
  | reserved id => exact reserved_all (by decide) (fromEnd_mem h)
  | endOfStatement => rfl
  | rune r => exact h
  | _ => cases h

theorem tableEnd_partEnd {t : Token} (h : partEnd t = true) : tableEnd t = true := by
  cases t with
  | reserved id => show (_ || _) = true; rw [h]; simp
  | endOfStatement => rfl
  | rune r => exact h
  | _ => cases h

theorem exprEnd_fromEnd {b : Bool} {t : Token} (h : fromEnd b t = true) : exprEnd t = true := by
  cases t with
  | reserved id => exact reserved_all (by decide) (fromEnd_mem h)
  | endOfStatement => rfl
  | rune r =>
    have h : (r == 44 || r == 41) = true := h
    simp only [Bool.or_eq_true, beq_iff_eq] at h
    rcases h with rfl | rfl <;> decide
  | _ => cases h

theorem exprEnd_resultEnd {t : Token} (h : resultEnd t = true) : exprEnd t = true := by
  cases t with
  | reserved id =>
    exact reserved_all (l := [Kw.FROM, Kw.WHERE, Kw.GROUP, Kw.HAVING, Kw.ORDER]) (by decide)
      (of_decide_eq_true h)
  | endOfStatement => rfl
  | rune r =>
    have h : (r == 44 || r == 41) = true := h
    simp only [Bool.or_eq_true, beq_iff_eq] at h
    rcases h with rfl | rfl <;> decide
  | _ => cases h

theorem exprEnd_listEnd {t : Token} (h : listEnd t = true) : exprEnd t = true :=
  exprEnd_fromEnd (fromEnd_listEnd true h)

theorem listEnd_queryEnd {t : Token} (h : queryEnd t = true) : listEnd t = true := by
  cases t <;> simp_all [queryEnd, listEnd]

theorem resultEnd_listEnd {t : Token} (h : listEnd t = true) : resultEnd t = true := by
  cases t with
  | reserved id =>
    exact reserved_all (l := [Kw.WHERE, Kw.GROUP, Kw.HAVING, Kw.ORDER]) (by decide)
      (of_decide_eq_true h)
  | endOfStatement => rfl
  | rune r =>
    have h : (r == 41) = true := h
    simp only [beq_iff_eq] at h
    subst h
    rfl
  | _ => cases h

/-! ### Names -/

section

variable {ts us rest : List Token} {f : Token → Bool}

theorem name_run {id : Identifier} (h : Name id ts) : expectIdentifier (ts ++ rest) = .ok id rest := by
  cases h
  rfl

theorem tableName_run {tn : TableName} (h : TableText tn ts) (hr : Ends f rest) (hf : IsFair f)
    (hd : f Tok.dot = false) : parseTableName (ts ++ rest) = .ok tn rest := by
  unfold parseTableName
  cases h with
  | one t =>
    rw [List.cons_append, bind_ok expectIdentifier_hit, List.nil_append,
      bind_ok (maybeToken_miss hr hf hd (by simp))]
    rfl
  | two s t =>
    simp only [List.cons_append, List.nil_append]
    rw [bind_ok expectIdentifier_hit, bind_ok (maybeToken_hit (by simp)), if_pos rfl,
      bind_ok expectIdentifier_hit, bind_ok (maybeToken_miss hr hf hd (by simp))]
    rfl
  | three d s t =>
    simp only [List.cons_append, List.nil_append]
    rw [bind_ok expectIdentifier_hit, bind_ok (maybeToken_hit (by simp)), if_pos rfl,
      bind_ok expectIdentifier_hit, bind_ok (maybeToken_hit (by simp)), if_pos rfl]
    rfl

theorem tableName_start {tn : TableName} (h : TableText tn ts) :
    ∃ id us, ts = .identifier id :: us := by
  cases h <;> exact ⟨_, _, rfl⟩

theorem alias_run {a : Identifier} {required : Bool} (h : AliasText a ts) :
    parseAlias required (ts ++ rest) = .ok a rest := by
  cases h <;> rfl

theorem alias_none (hr : Ends f rest) (hf : IsFair f) (ha : f (.reserved Kw.AS) = false)
    (hi : ∀ id, f (.identifier id) = false) : parseAlias false rest = .ok 0 rest := by
  unfold parseAlias
  rw [bind_ok (optionalReserved_miss hr hf (by simpa using ha)), if_neg (by simp)]
  refine peek_miss hr hf (fun e => ?_) (fun u l e hu hne => ?_)
  · rw [e]
    rfl
  · cases u with
    | identifier id => rw [hi] at hu; cases hu
    | _ =>
      simp only [Bool.false_eq_true, if_false]
      rw [bind_ok (unscan_cons hne), e]
      rfl

theorem optAlias_run {a : Identifier} (h : OptAlias a ts) (hr : Ends f rest) (hf : IsFair f)
    (ha : f (.reserved Kw.AS) = false) (hi : ∀ id, f (.identifier id) = false) :
    parseAlias false (ts ++ rest) = .ok a rest := by
  cases h with
  | none => exact alias_none hr hf ha hi
  | some h => exact alias_run h

/-- What an optional alias starts with. -/
theorem optAlias_ends {a : Identifier} (h : OptAlias a ts) {g : Token → Bool} (hr : Ends g rest)
    (ha : g (.reserved Kw.AS) = true) (hi : ∀ id, g (.identifier id) = true) :
    Ends g (ts ++ rest) := by
  cases h with
  | none => exact hr
  | some h =>
    cases h with
    | as => exact .cons ha
    | bare => exact .cons (hi a)

theorem names_run {l : List Identifier} (h : Separated Name l ts) :
    closedList expectIdentifier (ts ++ Tok.rparen :: rest) = .ok l rest := by
  obtain ⟨as, h1, h2⟩ := closedList_run (S := fun a b => a = b) (item := expectIdentifier)
    (f := fun _ => true) (rest := rest) (n := ts.length + 1) rfl rfl
    (fun b ts hb _ rest _ => ⟨b, name_run hb, rfl⟩) h (Nat.lt_succ_self _)
  rw [h2, h1.eq]

theorem columns_run {l : List Identifier} (h : OptColumns l ts) (hr : Ends f rest) (hf : IsFair f)
    (hp : f Tok.lparen = false) : parseColumnAliases (ts ++ rest) = .ok l rest := by
  unfold parseColumnAliases
  cases h with
  | none =>
    rw [List.nil_append, bind_ok (maybeToken_miss hr hf hp (by simp))]
    rfl
  | some h =>
    simp only [inParens, List.cons_append, List.append_assoc, List.nil_append]
    rw [bind_ok (maybeToken_hit (by simp)), if_pos rfl]
    exact names_run h

theorem joinType_run {jt : JoinType} (h : JoinWords jt ts) :
    parseJoinType (ts ++ rest) = .ok (some jt) rest := by
  cases h <;> rfl

theorem joinType_none {b : Bool} (hr : Ends (fromEnd b) rest) :
    parseJoinType rest = .ok none rest := by
  unfold parseJoinType
  rw [bind_ok (optionalReservedId_miss hr (fair_fromEnd b) (by cases b <;> decide))]
  rfl

theorem joinWords_start {jt : JoinType} (h : JoinWords jt ts) : Ends partEnd (ts ++ rest) := by
  cases h <;> exact .cons rfl

end

/-! ### Items of FROM -/

section

variable {env : ParseEnv} {n : Nat}

def FromOk (env : ParseEnv) (n : Nat) : Prop :=
  ∀ b f ts, FromText env.words b f ts → ts.length < n → ∀ rest, Ends (fromEnd b) rest →
    (parsers env n).fromItem (ts ++ rest) = .ok f rest

/-- Items after commas. -/
inductive Commas (words : Words) : FromItem → List Token → FromItem → Prop
  | nil (f : FromItem) : Commas words f [] f
  | cons {f r g : FromItem} {b : Bool} {us ts : List Token} : FromText words b r us →
    Commas words (.join f r .crossJoin none []) ts g →
    Commas words f (Tok.comma :: (us ++ ts)) g

theorem Commas.snoc {words : Words} {f g r : FromItem} {b : Bool} {ts us : List Token}
    (h : Commas words f ts g) (hr : FromText words b r us) :
    Commas words f (ts ++ Tok.comma :: us) (.join g r .crossJoin none []) := by
  induction h with
  | nil f =>
    have := Commas.cons hr (Commas.nil (.join f r .crossJoin none []))
    simpa using this
  | cons h1 _ ih =>
    have := Commas.cons h1 ih
    simpa using this

theorem fromList_split {words : Words} {f : FromItem} {ts : List Token} :
    FromListText words f ts → ∃ f0 b ts0 ts1, ts = ts0 ++ ts1 ∧ FromText words b f0 ts0 ∧
      Commas words f0 ts1 f
  | .one h => ⟨f, _, ts, [], by simp, h, .nil f⟩
  | .comma h hr => by
    obtain ⟨f0, b, ts0, ts1, rfl, h1, h2⟩ := fromList_split h
    exact ⟨f0, b, ts0, _, List.append_assoc _ _ _, h1, h2.snoc hr⟩

theorem commas_loop (hF : FromOk env n) {rest : List Token} (hr : Ends listEnd rest) {f g : FromItem}
    {ts : List Token} (h : Commas env.words f ts g) : ts.length ≤ n → ∀ k, ts.length < k →
    loopFuel (fun fi => do
      let comma ← maybeToken Tok.comma
      if comma then do
        let r ← (parsers env n).fromItem
        pure (.join fi r .crossJoin none [], true)
      else pure (fi, false)) k f (ts ++ rest) = .ok g rest := by
  induction h with
  | nil f =>
    intro _ k hk
    obtain ⟨j, rfl⟩ : ∃ j, k = j + 1 := ⟨k - 1, by omega⟩
    unfold loopFuel
    have hs : (do
        let comma ← maybeToken Tok.comma
        if comma then do
          let r ← (parsers env n).fromItem
          pure (.join f r .crossJoin none [], true)
        else pure (f, false) : P (FromItem × Bool)) ([] ++ rest) = .ok (f, false) rest := by
      rw [List.nil_append, bind_ok (maybeToken_miss hr fair_listEnd rfl (by simp))]
      rfl
    rw [bind_ok hs]
    rfl
  | @cons f r g b us ts h1 h2 ih =>
    intro hn k hk
    obtain ⟨j, rfl⟩ : ∃ j, k = j + 1 := ⟨k - 1, by omega⟩
    simp only [List.length_cons, List.length_append] at hn hk
    have he : Ends (fromEnd b) (ts ++ rest) := by
      cases h2 with
      | nil => exact hr.mono fun t => fromEnd_listEnd b
      | cons _ _ => exact .cons rfl
    unfold loopFuel
    have hs : (do
        let comma ← maybeToken Tok.comma
        if comma then do
          let r ← (parsers env n).fromItem
          pure (.join f r .crossJoin none [], true)
        else pure (f, false) : P (FromItem × Bool)) (Tok.comma :: (us ++ ts) ++ rest) =
        .ok (.join f r .crossJoin none [], true) (ts ++ rest) := by
      simp only [List.cons_append, List.append_assoc]
      rw [bind_ok (maybeToken_hit (by simp)), if_pos rfl,
        bind_ok (hF b r us h1 (by omega) (ts ++ rest) he)]
      rfl
    rw [bind_ok hs]
    simp only [if_true]
    exact ih (by omega) j (by omega)

theorem fromList_run (hF : FromOk env n) {f : FromItem} {ts rest : List Token}
    (h : FromListText env.words f ts) (hn : ts.length < n) (hr : Ends listEnd rest) :
    (parsers env n).fromList (ts ++ rest) = .ok f rest := by
  obtain ⟨f0, b, ts0, ts1, rfl, h1, h2⟩ := fromList_split h
  simp only [List.length_append] at hn
  have he : Ends (fromEnd b) (ts1 ++ rest) := by
    cases h2 with
    | nil => exact hr.mono fun t => fromEnd_listEnd b
    | cons _ _ => exact .cons rfl
  unfold Parsers.fromList
  rw [List.append_assoc, bind_ok (hF b f0 ts0 h1 (by omega) (ts1 ++ rest) he)]
  exact commas_loop hF hr h2 (by omega) _ (by rw [List.length_append]; omega)

/-- The second part of `parseFromItem`. -/
def afterPart (p : Parsers) (fi : FromItem) : P FromItem := do
  let jt ← parseJoinType
  match jt with
  | none => pure fi
  | some jt => do
    let r ← p.fromItem
    let (on, cols) ← p.joinCondition
    if jt = .crossJoin then
      if on.isSome ∨ cols ≠ [] then P.error else pure (.join fi r jt on cols)
    else
      if (on.isSome ∧ cols ≠ []) ∨ (on.isNone ∧ cols = []) then P.error
      else pure (.join fi r jt on cols)

theorem fromPart_start {words : Words} {f : FromItem} {ts : List Token}
    (h : FromPart words f ts) :
    (∃ id us, ts = .identifier id :: us) ∨ ∃ us, ts = Tok.lparen :: us := by
  cases h with
  | table h _ =>
    obtain ⟨id, us, rfl⟩ := tableName_start h
    exact Or.inl ⟨id, _, rfl⟩
  | index _ h _ =>
    obtain ⟨id, us, rfl⟩ := tableName_start h
    exact Or.inl ⟨id, _, rfl⟩
  | stmt _ _ _ => exact Or.inr ⟨_, rfl⟩
  | paren _ => exact Or.inr ⟨_, rfl⟩

theorem fromList_start {words : Words} {f : FromItem} {ts : List Token}
    (h : FromListText words f ts) :
    (∃ id us, ts = .identifier id :: us) ∨ ∃ us, ts = Tok.lparen :: us := by
  obtain ⟨f0, b, ts0, ts1, rfl, h1, h2⟩ := fromList_split h
  have : (∃ id us, ts0 = .identifier id :: us) ∨ ∃ us, ts0 = Tok.lparen :: us := by
    have key : ∀ {f : FromItem} {ts us : List Token}, FromPart words f ts →
        (∃ id vs, ts ++ us = .identifier id :: vs) ∨ ∃ vs, ts ++ us = Tok.lparen :: vs := by
      intro f ts us h
      rcases fromPart_start h with ⟨id, vs, rfl⟩ | ⟨vs, rfl⟩
      · exact Or.inl ⟨id, _, rfl⟩
      · exact Or.inr ⟨_, rfl⟩
    cases h1 with
    | plain h => exact fromPart_start h
    | on h' _ _ _ _ => exact key (by assumption)
    | «using» h' _ _ _ _ _ => exact key (by assumption)
    | cross h' _ _ => exact key (by assumption)
  rcases this with ⟨id, us, rfl⟩ | ⟨us, rfl⟩
  · exact Or.inl ⟨id, _, rfl⟩
  · exact Or.inr ⟨_, rfl⟩

theorem fromPart_run (hQ : QueryOk env n) (hF : FromOk env n) {f : FromItem} {ts rest : List Token}
    (h : FromPart env.words f ts) (hn : ts.length < n + 1) (hr : Ends partEnd rest) :
    (parsers env n).stepFromItem (ts ++ rest) = afterPart (parsers env n) f rest := by
  have htab : ∀ {tn : TableName} {ts rest : List Token} {r : PRes FromItem}, TableText tn ts →
      (parseTableAlias >>= afterPart (parsers env n)) (ts ++ rest) = r →
      (parsers env n).stepFromItem (ts ++ rest) = r := by
    intro tn ts rest r h he
    obtain ⟨id, us, rfl⟩ := tableName_start h
    unfold Parsers.stepFromItem
    have hm : maybeToken Tok.lparen (.identifier id :: us ++ rest) =
        .ok false (.identifier id :: us ++ rest) :=
      maybeToken_miss (f := fun t => t == .identifier id) (.cons (by simp))
        ⟨rfl, rfl⟩ (by simp) (by simp)
    rw [bind_ok hm, if_neg (by simp)]
    exact he
  cases h with
  | @table tn a ts us h ha =>
    rw [List.append_assoc]
    refine htab h ?_
    have he : Ends tableEnd (us ++ rest) :=
      optAlias_ends ha (hr.mono fun t => tableEnd_partEnd) rfl (fun _ => rfl)
    have : parseTableAlias (ts ++ (us ++ rest)) = .ok (.table tn a) rest := by
      unfold parseTableAlias
      rw [bind_ok (tableName_run h he fair_tableEnd rfl),
        bind_ok (maybeToken_miss he fair_tableEnd rfl (by simp)), if_neg (by simp),
        bind_ok (optAlias_run ha hr fair_partEnd rfl (fun _ => rfl))]
      rfl
    rw [bind_ok this]
  | @index tn a ts us i h ha =>
    rw [List.append_assoc]
    refine htab h ?_
    have he : Ends nameEnd (Tok.atSign :: .identifier i :: us ++ rest) := .cons rfl
    have : parseTableAlias (ts ++ (Tok.atSign :: .identifier i :: us ++ rest)) =
        .ok (.index tn i a) rest := by
      unfold parseTableAlias
      rw [bind_ok (tableName_run h he fair_nameEnd rfl)]
      simp only [List.cons_append]
      rw [bind_ok (maybeToken_hit (by simp)), if_pos rfl, bind_ok expectIdentifier_hit,
        bind_ok (optAlias_run ha hr fair_partEnd rfl (fun _ => rfl))]
      rfl
    rw [bind_ok this]
  | @stmt q a cols ts us vs h ha hc =>
    simp only [inParens, List.length_append, List.length_cons] at hn
    have hs : parseFromStmt q (Tok.rparen :: (us ++ (vs ++ rest))) = .ok (.stmt q a cols) rest := by
      unfold parseFromStmt
      rw [bind_ok (expectTokens_hit (by simp) (by simp)), bind_ok (alias_run ha),
        bind_ok (columns_run hc hr fair_partEnd rfl)]
      rfl
    unfold Parsers.stepFromItem
    simp only [inParens, List.cons_append, List.append_assoc, List.nil_append]
    rw [bind_ok (maybeToken_hit (by simp)), if_pos rfl,
      bind_ok (a := FromItem.stmt q a cols) (rest := rest) (by
        rw [bind_ok (hQ q ts h (by omega) _ (.cons rfl))]
        exact hs)]
    rfl
  | @paren _ ts h =>
    simp only [inParens, List.length_append, List.length_cons] at hn
    have hq : (parsers env n).query (ts ++ Tok.rparen :: rest) = .ok none (ts ++ Tok.rparen :: rest) := by
      have he : Ends (fun t => match t with | .identifier _ => true | t => t == Tok.lparen)
          (ts ++ Tok.rparen :: rest) := by
        rcases fromList_start h with ⟨id, us, rfl⟩ | ⟨us, rfl⟩ <;> exact .cons rfl
      exact query_none he ⟨rfl, rfl⟩ (by decide) (by omega)
    unfold Parsers.stepFromItem
    simp only [inParens, List.cons_append, List.append_assoc, List.nil_append]
    rw [bind_ok (maybeToken_hit (by simp)), if_pos rfl,
      bind_ok (a := f) (rest := rest) (by
        rw [bind_ok hq]
        simp only
        rw [bind_ok (fromList_run hF h (by omega) (.cons rfl)),
          bind_ok (expectTokens_hit (by simp) (by simp))]
        rfl)]
    rfl

theorem fromItem_step (hS : SubOk env n) (hQ : QueryOk env n) (hF : FromOk env n) :
    FromOk env (n + 1) := by
  intro b f ts h hn rest hr
  show (parsers env n).stepFromItem (ts ++ rest) = _
  cases h with
  | plain h =>
    rw [fromPart_run hQ hF h hn (hr.mono fun t => partEnd_fromEnd)]
    unfold afterPart
    rw [bind_ok (joinType_none hr)]
    rfl
  | @on l r jt e ts ws us vs h hw hj h2 he =>
    simp only [List.length_append, List.length_cons] at hn
    simp only [List.append_assoc, List.cons_append]
    rw [fromPart_run hQ hF h (by omega) (joinWords_start hw)]
    unfold afterPart
    rw [bind_ok (joinType_run hw)]
    simp only
    have hc : (parsers env n).joinCondition (.reserved Kw.ON :: (vs ++ rest)) =
        .ok (some e, []) rest := by
      unfold Parsers.joinCondition
      rw [bind_ok (clause_hit (hS.expr he (by omega) (hr.mono fun t => exprEnd_fromEnd)))]
      rfl
    rw [bind_ok (hF true r us h2 (by omega) _ (.cons rfl)), bind_ok hc]
    simp only
    rw [if_neg hj, if_neg (by simp)]
    rfl
  | @«using» l r jt cols ts ws us vs h hw hj h2 hv hd =>
    simp only [List.length_append, List.length_cons] at hn
    simp only [List.append_assoc, List.cons_append]
    rw [fromPart_run hQ hF h (by omega) (joinWords_start hw)]
    unfold afterPart
    rw [bind_ok (joinType_run hw)]
    simp only
    have hne : cols ≠ [] := by cases hv <;> simp
    have hc : (parsers env n).joinCondition (.reserved Kw.USING :: (inParens vs ++ rest)) =
        .ok (none, cols) rest := by
      unfold Parsers.joinCondition
      rw [bind_ok (clause_miss (f := fun t => t == .reserved Kw.USING) (.cons (by simp)) ⟨rfl, rfl⟩
        (by decide))]
      simp only
      rw [bind_ok (clause_hit (a := cols) (rest := rest) (by
        simp only [inParens, List.cons_append, List.append_assoc, List.nil_append]
        rw [bind_ok (expectTokens_hit (by simp) (by simp))]
        exact distinctColumns_run hv hd))]
      rfl
    rw [bind_ok (hF true r us h2 (by omega) _ (.cons rfl)), bind_ok hc]
    simp only
    rw [if_neg hj, if_neg (by simp [hne])]
    rfl
  | @cross l r b ts ws us h hw h2 =>
    simp only [List.length_append] at hn
    simp only [List.append_assoc]
    rw [fromPart_run hQ hF h (by omega) (joinWords_start hw)]
    unfold afterPart
    rw [bind_ok (joinType_run hw)]
    simp only
    have hr2 : Ends (fromEnd b) rest := hr.mono fun t ht => by
      cases b
      · exact ht
      · cases t <;> simp_all [fromEnd]
    have hc : (parsers env n).joinCondition rest = .ok (none, []) rest := by
      unfold Parsers.joinCondition
      rw [bind_ok (clause_miss hr (fair_fromEnd false) (by decide))]
      simp only
      rw [bind_ok (clause_miss hr (fair_fromEnd false) (by decide))]
      rfl
    have hl : 0 < ws.length := by cases hw; simp
    rw [bind_ok (hF b r us h2 (by omega) _ hr2), bind_ok hc]
    simp only [if_true]
    rw [if_neg (by simp)]
    rfl

end

end Maho
