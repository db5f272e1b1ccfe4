import Verif.Lemmas.Define
import Verif.Lemmas.SoundStmt
/-
Helper lemmas for C78: what both accept has the names and sizes of statements.
-/
namespace Maho
open Maho.Spec P

theorem made_of {α β : Type} {m : P α} {k : α → P β} {ts rest : List Token} {b : β}
    (h : (m >>= k) ts = .ok b rest) : ∃ a us, m ts = .ok a us ∧ k a us = .ok b rest := by
  have h : P.bind m k ts = .ok b rest := h
  unfold P.bind at h
  split at h
  · exact ⟨_, _, ‹_›, h⟩
  all_goals cases h

/-- A token that starts with a digit or `$`. -/
def oddToken : Token → Bool
  | .integer _ => true
  | .float _ => true
  | .parameter _ => true
  | .error _ => true
  | _ => false

theorem scanNumber_odd (env : ScanEnv) : ∀ (rest : List Nat) (neg dbl : Bool) (buf : Bytes),
    oddToken (scanNumber env false neg dbl buf rest).token = true
  | [], neg, dbl, buf => by
    simp only [scanNumber, Bool.false_eq_true, if_false, ScanEnv.numberToken]
    split <;> split <;> rfl
  | r :: rest, neg, dbl, buf => by
    unfold scanNumber
    split
    · exact scanNumber_odd env rest _ _ _
    · split
      · exact scanNumber_odd env rest _ _ _
      · simp only [ScanEnv.numberToken]
        split <;> split <;> rfl

theorem scanParameter_odd (env : ScanEnv) : ∀ (rest : List Nat) (buf : Bytes),
    oddToken (scanParameter env false buf rest).token = true
  | [], buf => by
    simp only [scanParameter, Bool.false_eq_true, if_false, parameterToken]
    split
    · rfl
    · split <;> rfl
  | r :: rest, buf => by
    unfold scanParameter
    split
    · exact scanParameter_odd env rest _
    · simp only [parameterToken]
      split
      · rfl
      · split <;> rfl

theorem scan_odd (env : RowEnv) {r : Nat} (h : env.digit r = true ∨ r = 36) (rest : List Nat) :
    oddToken (scan env.toScanEnv false (r :: rest)).token = true := by
  have hs : isSpace r = false := by
    rcases h with h | rfl
    · cases hs : isSpace r with
      | false => rfl
      | true => rw [env.space_digit r hs] at h; cases h
    · decide
  have hl : env.letter r = false := by
    rcases h with h | rfl
    · cases hl : env.letter r with
      | false => rfl
      | true => rw [env.letter_digit r hl] at h; cases h
    · exact letter_false _ (by omega)
  have ha : r < 128 → 48 ≤ r ∧ r ≤ 57 ∨ r = 36 := by
    intro hr
    rcases h with h | rfl
    · rw [env.digit_ascii r hr] at h
      simp at h
      omega
    · omega
  have hst : Starts r rest := starts_of _ hs (by omega) (by omega)
  unfold scan
  rw [skip_start hst]
  have n1 : r ≠ ';'.toNat := by show r ≠ 59; omega
  have n2 : ¬ (r = 'e'.toNat ∨ r = 'E'.toNat) := by show ¬ (r = 101 ∨ r = 69); omega
  have n3 : r ≠ 'b'.toNat := by show r ≠ 98; omega
  have n4 : ¬ (r = 'x'.toNat ∨ r = 'X'.toNat) := by show ¬ (r = 120 ∨ r = 88); omega
  have n5 : ¬ (env.letter r = true ∨ r = '_'.toNat) := by
    rw [hl]
    show ¬ (false = true ∨ r = 95)
    simp
    omega
  simp only [if_neg n1, if_neg n2, if_neg n3, if_neg n4, if_neg n5]
  rcases h with h | rfl
  · rw [if_pos h]
    exact scanNumber_odd _ _ _ _ _
  · have hd : env.digit 36 = false := digit_false _ (by omega)
    have ho : isOpRune 36 = false := by decide
    cases rest with
    | nil => simp [hd, ho, oddToken]
    | cons r2 rest2 =>
      simp [hd, ho]
      split
      · exact scanParameter_odd _ _ _
      · rfl

/-- The first token. -/
def First (p : Token → Bool) (ts : List Token) : Prop := ∃ t us, ts = t :: us ∧ p t = true

theorem name_first {env : RowEnv} {id : Identifier} {m : List Nat} (h : NameText env id m)
    (rest : List Nat) : StatementName env id m ∨
      First oddToken (tokenize env.toScanEnv (m ++ rest)) := by
  obtain ⟨h1, h2, h3⟩ := h
  cases m with
  | nil => exact absurd rfl h1
  | cons r m =>
    have odd : env.digit r = true ∨ r = 36 →
        First oddToken (tokenize env.toScanEnv (r :: m ++ rest)) := by
      intro h
      have := scan_odd env h (m ++ rest)
      rw [show r :: m ++ rest = r :: (m ++ rest) from rfl, tokenize_scan]
      · exact ⟨_, _, rfl, this⟩
      · intro e
        rw [e] at this
        cases this
    have good : env.letter r = true ∨ r = 95 → StatementName env id (r :: m) :=
      fun h => ⟨⟨r, m, rfl, h, fun c hc => h2 c (by simp [hc])⟩, h3⟩
    rcases h2 r (by simp) with h | h | h | h
    · exact .inl (good (.inl h))
    · exact .inr (odd (.inl h))
    · exact .inl (good (.inr h))
    · exact .inr (odd (.inr h))

/-! ### What is not accepted -/

theorem expectIdentifier_of {a : Identifier} {ts rest : List Token}
    (h : expectIdentifier ts = .ok a rest) : ts = .identifier a :: rest := by
  obtain ⟨t, us, h1, h2⟩ := made_of h
  cases ts with
  | nil => cases h1; cases h2
  | cons t' ts =>
    by_cases he : t' = .error false
    · subst he; cases h1
    · rw [next_hit he] at h1
      cases h1
      cases t with
      | identifier id =>
        cases h2
        rfl
      | error b => cases b <;> cases h2
      | _ => cases h2

theorem expectReserved_of {ids : List Identifier} {a : Identifier} {ts rest : List Token}
    (h : expectReserved ids ts = .ok a rest) : a ∈ ids ∧ ts = .reserved a :: rest := by
  obtain ⟨t, us, h1, h2⟩ := made_of h
  cases ts with
  | nil => cases h1; cases h2
  | cons t' ts =>
    by_cases he : t' = .error false
    · subst he; cases h1
    · rw [next_hit he] at h1
      cases h1
      cases t with
      | reserved id =>
        dsimp only at h2
        split at h2
        · cases h2
          exact ⟨‹_›, rfl⟩
        · cases h2
      | error b => cases b <;> cases h2
      | _ => cases h2

theorem expectTokens_of {tokens : List Token} {a : Token} {ts rest : List Token} (he : .eof ∉ tokens)
    (h : expectTokens tokens ts = .ok a rest) : a ∈ tokens ∧ ts = a :: rest := by
  obtain ⟨t, us, h1, h2⟩ := made_of h
  have e : ∀ t us, errorGot t us ≠ (.ok a rest : PRes Token) := by
    intro t us h
    unfold errorGot at h
    split at h <;> cases h
  split at h2
  · cases h2
    cases ts with
    | nil => cases h1; exact absurd ‹_› he
    | cons t' ts =>
      by_cases hf : t' = .error false
      · subst hf; cases h1
      · rw [next_hit hf] at h1
        cases h1
        exact ⟨‹_›, rfl⟩
  · exact absurd h2 (e _ _)

theorem maybeIdentifier_of {id : Identifier} {t : Token} {b : Bool} {us rest : List Token}
    (he : t ≠ .eof) (hn : t ≠ .identifier id) (h : maybeIdentifier id (t :: us) = .ok b rest) :
    b = false ∧ rest = t :: us := by
  obtain ⟨t', us', h1, h2⟩ := made_of h
  by_cases hf : t = .error false
  · subst hf; cases h1
  · rw [next_hit hf] at h1
    cases h1
    rw [if_neg hn] at h2
    obtain ⟨_, _, h3, h4⟩ := made_of h2
    rw [unscan_cons he] at h3
    cases h3
    cases h4
    exact ⟨rfl, rfl⟩

theorem maybeToken_of {mt t : Token} {b : Bool} {us rest : List Token}
    (he : t ≠ .eof) (hn : t ≠ mt) (h : maybeToken mt (t :: us) = .ok b rest) :
    b = false ∧ rest = t :: us := by
  obtain ⟨t', us', h1, h2⟩ := made_of h
  by_cases hf : t = .error false
  · subst hf; cases h1
  · rw [next_hit hf] at h1
    cases h1
    rw [if_neg hn] at h2
    obtain ⟨_, _, h3, h4⟩ := made_of h2
    rw [unscan_cons he] at h3
    cases h3
    cases h4
    exact ⟨rfl, rfl⟩

theorem optionalReservedId_of {ids : List Identifier} {t : Token} {o : Option Identifier}
    {us rest : List Token} (he : t ≠ .eof) (h : optionalReservedId ids (t :: us) = .ok o rest) :
    (∃ id ∈ ids, t = .reserved id ∧ o = some id ∧ rest = us) ∨
      ((∀ id ∈ ids, t ≠ .reserved id) ∧ o = none ∧ rest = t :: us) := by
  obtain ⟨t', us', h1, h2⟩ := made_of h
  by_cases hf : t = .error false
  · subst hf; cases h1
  rw [next_hit hf] at h1
  cases h1
  have back : ∀ {o rest}, (do unscan t; pure none : P (Option Identifier)) us = .ok o rest →
      o = none ∧ rest = t :: us := by
    intro o rest h
    obtain ⟨_, _, h3, h4⟩ := made_of h
    rw [unscan_cons he] at h3
    cases h3
    cases h4
    exact ⟨rfl, rfl⟩
  cases t with
  | reserved id =>
    dsimp only at h2
    split at h2
    · cases h2
      exact .inl ⟨id, ‹_›, rfl, rfl, rfl⟩
    · refine .inr ⟨?_, back h2⟩
      rintro id' hid e
      cases e
      exact absurd hid ‹_›
  | _ => exact .inr ⟨by simp, back h2⟩

theorem constraintName_of {t : Token} {n : Identifier} {us rest : List Token} (he : t ≠ .eof)
    (hn : t ≠ .reserved Kw.CONSTRAINT) (h : parseConstraintName (t :: us) = .ok n rest) :
    n = 0 ∧ rest = t :: us := by
  obtain ⟨cn, us', h1, h2⟩ := made_of h
  unfold clause at h1
  obtain ⟨b, us2, h3, h4⟩ := made_of h1
  obtain ⟨o, us3, h5, h6⟩ := made_of h3
  rcases optionalReservedId_of he h5 with ⟨id, hid, e, _, _⟩ | ⟨_, rfl, rfl⟩
  · simp at hid
    exact absurd (hid ▸ e) hn
  · cases h6
    cases h4
    cases h2
    exact ⟨rfl, rfl⟩

/-! ### What is said about a column -/

theorem columnConstraint_end {env : ParseEnv} {p : Parsers} {nam : Identifier} {st : ColumnState}
    {t : Token} {us rest : List Token} {a : ColumnState × Bool} (he : t ≠ .eof)
    (hr : ∀ id, t ≠ .reserved id) (h : p.columnConstraint env nam st (t :: us) = .ok a rest) :
    a = (st, false) ∧ rest = t :: us := by
  unfold Parsers.columnConstraint at h
  obtain ⟨n, us1, h1, h⟩ := made_of h
  obtain ⟨rfl, rfl⟩ := constraintName_of he (hr _) h1
  obtain ⟨o, us2, h2, h⟩ := made_of h
  rcases optionalReservedId_of he h2 with ⟨id, _, e, _⟩ | ⟨_, rfl, rfl⟩
  · exact absurd e (hr _)
  · cases h
    exact ⟨rfl, rfl⟩

theorem addKey_of {s s' : CreateTable} {n : Identifier} {key : IndexKey} {us rest : List Token}
    (h : addKeyConstraint s .primary n key us = .ok s' rest) :
    us = rest ∧ (∀ c ∈ s.constraints, c.type ≠ .primary) ∧
      s' = withConstraint s ⟨.primary, n, -1, key, none⟩ := by
  unfold addKeyConstraint at h
  split at h
  · cases h
  · rename_i hany
    cases hq : anyEqualKey key s.constraints with
    | ok b =>
      rw [hq] at h
      cases b with
      | true => cases h
      | false =>
        cases h
        refine ⟨rfl, ?_, rfl⟩
        intro c hc e
        apply hany
        rw [List.any_eq_true]
        exact ⟨c, hc, by simp [e]⟩
    | err e => rw [hq] at h; cases h
    | panic => rw [hq] at h; cases h

theorem columnConstraint_primary {env : ParseEnv} {p : Parsers} {nam : Identifier} {st : ColumnState}
    {us rest : List Token} {a : ColumnState × Bool}
    (h : p.columnConstraint env nam st (.reserved Kw.PRIMARY :: us) = .ok a rest) :
    us = .reserved Kw.KEY :: rest ∧ a.2 = true ∧ a.1.ct = st.ct ∧ a.1.s.columns = st.s.columns ∧
      (∀ c ∈ st.s.constraints, c.type ≠ .primary) ∧
      ∃ c : Constraint, c.type = .primary ∧ a.1.s.constraints = st.s.constraints ++ [c] := by
  unfold Parsers.columnConstraint at h
  obtain ⟨n, us1, h1, h⟩ := made_of h
  obtain ⟨rfl, rfl⟩ := constraintName_of (by simp) (by decide) h1
  rw [bind_ok (optionalReservedId_hit (by decide))] at h
  dsimp only at h
  rw [if_neg (by decide), if_neg (by decide), if_pos rfl] at h
  obtain ⟨_, us2, h2, h5⟩ := made_of h
  obtain ⟨hk, rfl⟩ := expectReserved_of h2
  simp at hk
  subst hk
  obtain ⟨s', us3, h3, h4⟩ := made_of h5
  cases h4
  obtain ⟨rfl, h6, rfl⟩ := addKey_of h3
  exact ⟨rfl, rfl, rfl, rfl, h6, ⟨_, rfl, rfl⟩⟩

theorem columnConstraint_not {env : ParseEnv} {p : Parsers} {nam : Identifier} {st : ColumnState}
    {us rest : List Token} {a : ColumnState × Bool}
    (h : p.columnConstraint env nam st (.reserved Kw.NOT :: us) = .ok a rest) :
    us = .reserved Kw.NULL :: rest ∧ a.2 = true ∧ a.1.s = st.s ∧ st.ct.notNull = false ∧
      a.1.ct.notNull = true := by
  unfold Parsers.columnConstraint at h
  obtain ⟨n, us1, h1, h⟩ := made_of h
  obtain ⟨rfl, rfl⟩ := constraintName_of (by simp) (by decide) h1
  rw [bind_ok (optionalReservedId_hit (by decide))] at h
  dsimp only at h
  rw [if_neg (by decide), if_pos rfl] at h
  obtain ⟨_, us2, h2, h5⟩ := made_of h
  obtain ⟨hk, rfl⟩ := expectReserved_of h2
  simp at hk
  subst hk
  split at h5
  · cases h5
  · rename_i hn
    cases h5
    exact ⟨rfl, rfl, rfl, by simpa using hn, rfl⟩

theorem endsName_words {env : RowEnv} {ws : List ColumnWord} {l rest : List Nat}
    {N : Identifier → List Nat → Prop} (hw : WordsText N ws l)
    (hs : ws ≠ [] → ∃ c l', l = c :: l' ∧ isSpace c = true)
    (hr : ∀ c, rest.head? = some c → EndsName env.toScanEnv c) :
    ∀ c, (l ++ rest).head? = some c → EndsName env.toScanEnv c := by
  intro c hc
  cases hw with
  | nil => exact hr c hc
  | cons w' =>
    obtain ⟨c', l', e, hc'⟩ := hs (by simp)
    rw [e] at hc
    cases hc
    exact endsName_space hc'

theorem endsName_gap {env : RowEnv} {b rest : List Nat} (hb : Gap b) :
    ∀ c, (b ++ rest).head? = some c → EndsName env.toScanEnv c := by
  intro c hc
  obtain ⟨h1, h2⟩ := hb
  cases b with
  | nil => exact absurd rfl h1
  | cons c' b =>
    cases hc
    exact endsName_space (h2 c (by simp))

/-- A comma or a closing parenthesis. -/
def stopToken (t : Token) : Bool := t == Tok.comma || t == Tok.rparen

theorem loop_made {σ : Type} {step : σ → P (σ × Bool)} {n : Nat} {s s' : σ} {ts rest : List Token}
    (h : loopFuel step n s ts = .ok s' rest) : ∃ k a b us, n = k + 1 ∧ step s ts = .ok (a, b) us ∧
      if b then loopFuel step k a us = .ok s' rest else s' = a ∧ rest = us := by
  cases n with
  | zero => cases h
  | succ k =>
    unfold loopFuel at h
    obtain ⟨⟨a, b⟩, us, h1, h2⟩ := made_of h
    refine ⟨k, a, b, us, rfl, h1, ?_⟩
    cases b with
    | true => exact h2
    | false => cases h2; exact ⟨rfl, rfl⟩

/-- Only `PRIMARY KEY`, at most once. -/
def OnePrimary (s : CreateTable) : Prop :=
  s.constraints.length ≤ 1 ∧ ∀ c ∈ s.constraints, c.type = .primary

theorem words_only {env : RowEnv} {p : Parsers} {nam : Identifier} {ws : List ColumnWord}
    {l : List Nat} (h : WordsText (NameText env) ws l) : ∀ {n : Nat} {st st' : ColumnState}
    {rest : List Nat} {ts : List Token}, (∀ c, rest.head? = some c → EndsName env.toScanEnv c) →
    First stopToken (tokenize env.toScanEnv rest) → OnePrimary st.s →
    loopFuel (p.columnConstraint env.toParseEnv nam) n st (tokenize env.toScanEnv (l ++ rest)) =
      .ok st' ts →
    First oddToken ts ∨ ts = tokenize env.toScanEnv rest ∧ WordsText (StatementName env) ws l ∧
      ws.count .notNull ≤ 1 ∧ (st.ct.notNull = true → .notNull ∉ ws) ∧ OnePrimary st'.s ∧
      st'.s.constraints.length = st.s.constraints.length + ws.count .primaryKey ∧
      st'.s.columns = st.s.columns := by
  induction h with
  | nil =>
    intro n st st' rest ts hr hf ho h
    obtain ⟨t, us, e, ht⟩ := hf
    obtain ⟨k, a, b, us', rfl, h1, h2⟩ := loop_made h
    rw [List.nil_append, e] at h1
    have ht' : t = Tok.comma ∨ t = Tok.rparen := by simpa [stopToken] using ht
    obtain ⟨h3, rfl⟩ := columnConstraint_end (by rcases ht' with rfl | rfl <;> simp)
      (by rcases ht' with rfl | rfl <;> simp) h1
    cases h3
    obtain ⟨rfl, rfl⟩ := h2
    exact .inr ⟨e.symm, .nil, by simp, by simp, ho, rfl, rfl⟩
  | cons w a m b n ws l ha hm hb hn hw hs ih =>
    intro k st st' rest ts hr hf ho h
    have hr' := endsName_words hw hs hr
    simp only [List.append_assoc] at h
    rw [tokenize_blanks _ ha] at h
    obtain ⟨k, st1, again, us, rfl, h1, h2⟩ := loop_made h
    rcases name_first hm (b ++ (n ++ (l ++ rest))) with hm' | ⟨t, vs, e, ht⟩
    · rw [lexesTo_name hm' _ (endsName_gap hb), tokenize_blanks _ hb.2, (nameToken_word w).1,
        List.singleton_append] at h1
      have second : ∀ {us : List Token}, tokenize env.toScanEnv (n ++ (l ++ rest)) =
          .reserved w.words.2 :: us → StatementName env w.words.2 n ∧
          us = tokenize env.toScanEnv (l ++ rest) := by
        intro us e
        rcases name_first hn (l ++ rest) with hn' | ⟨t, vs, e', ht⟩
        · rw [lexesTo_name hn' _ hr', (nameToken_word w).2] at e
          cases e
          exact ⟨hn', rfl⟩
        · rw [e'] at e
          cases e
          cases ht
      cases w with
      | primaryKey =>
        obtain ⟨e, hb2, hct, hcol, hno, c, hc, hcs⟩ := columnConstraint_primary h1
        obtain ⟨hn', rfl⟩ := second e
        have hb2 : again = true := hb2
        subst hb2
        have hnil : st.s.constraints = [] := by
          cases hl : st.s.constraints with
          | nil => rfl
          | cons c l =>
            have hmem : c ∈ st.s.constraints := by rw [hl]; simp
            exact absurd (ho.2 c hmem) (hno c hmem)
        have ho1 : OnePrimary st1.s := by
          unfold OnePrimary
          rw [hcs, hnil]
          simpa using hc
        rcases ih hr hf ho1 h2 with h3 | ⟨h3, h4, h5, h6, h7, h8, h9⟩
        · exact .inl h3
        · refine .inr ⟨h3, .cons _ _ _ _ _ _ _ ha hm' hb hn' h4 hs, by simpa using h5, ?_, h7, ?_, ?_⟩
          · intro e
            simpa using h6 (hct ▸ e)
          · rw [h8, hcs]
            simp
            omega
          · rw [h9]
            exact hcol
      | notNull =>
        obtain ⟨e, hb2, hst, hnn, hnt⟩ := columnConstraint_not h1
        obtain ⟨hn', rfl⟩ := second e
        have hb2 : again = true := hb2
        subst hb2
        have hst : st1.s = st.s := hst
        rcases ih hr hf (by rw [hst]; exact ho) h2 with h3 | ⟨h3, h4, h5, h6, h7, h8, h9⟩
        · exact .inl h3
        · have h0 : ws.count .notNull = 0 := List.count_eq_zero.2 (h6 hnt)
          refine .inr ⟨h3, .cons _ _ _ _ _ _ _ ha hm' hb hn' h4 hs, by simp [h0], ?_, h7, ?_, ?_⟩
          · intro e
            rw [hnn] at e
            cases e
          · rw [h8, hst]
            simp
          · rw [h9, hst]
    · rw [e] at h1
      have : t ≠ .eof ∧ ∀ id, t ≠ .reserved id := by cases t <;> simp_all [oddToken]
      obtain ⟨h3, rfl⟩ := columnConstraint_end this.1 this.2 h1
      cases h3
      obtain ⟨rfl, rfl⟩ := h2
      exact .inl ⟨t, vs, rfl, ht⟩

/-! ### The type -/

/-- What can follow a type in the text of a column. -/
def afterType (t : Token) : Bool :=
  stopToken t || oddToken t || t == .reserved Kw.PRIMARY || t == .reserved Kw.NOT

theorem type_only {env : RowEnv} {ct ct' : ColumnType} {sized : Bool} {t rest : List Nat}
    {ts : List Token} (h : SizedText (NameText env) (2 ^ 63) ct sized t)
    (hr : ∀ c, rest.head? = some c → sized = false → EndsName env.toScanEnv c)
    (hf : First afterType (tokenize env.toScanEnv rest))
    (hp : parseColumnType (tokenize env.toScanEnv (t ++ rest)) = .ok ct' ts) :
    SizedText (StatementName env) (2 ^ 32 - 1) ct sized t ∧ ts = tokenize env.toScanEnv rest ∧
      ct'.notNull = false := by
  obtain ⟨t1, us, e1, ht1⟩ := hf
  have hne : t1 ≠ .eof ∧ t1 ≠ Tok.lparen ∧ ∀ id, t1 ≠ .identifier id := by
    refine ⟨?_, ?_, ?_⟩
    · rintro rfl; cases ht1
    · rintro rfl; revert ht1; decide
    · rintro id rfl; cases ht1
  have nn : ∀ {w ct}, (w, ct) ∈ typeNames → ct.notNull = false := by
    intro w ct h
    exact (by decide : ∀ p ∈ typeNames, p.2.notNull = false) _ h
  unfold parseColumnType at hp
  obtain ⟨typ', us1, h1, h2⟩ := made_of hp
  have h1 := expectIdentifier_of h1
  cases h with
  | name typ _ m hm hmem =>
    rcases name_first hm rest with hm' | ⟨t, vs, e, ht⟩
    · rw [lexesTo_name hm' rest fun c hc => hr c hc rfl, nameToken, typeNames_free hmem] at h1
      cases h1
      rw [typeNames_lookup hmem] at h2
      have fin : ∀ {us2 : List Token}, us2 = tokenize env.toScanEnv rest → (if ct.type = .string ∨ ct.type = .bytes then do
          let paren ← maybeToken Tok.lparen
          if paren then do
            let i ← expectInteger 0 maxColumnSize
            let _ ← expectTokens [Tok.rparen]
            pure { ct with size := BitVec.setWidth 32 i }
          else pure ct
        else pure ct : P ColumnType) us2 = .ok ct' ts → ts = tokenize env.toScanEnv rest ∧ ct' = ct := by
        rintro us2 rfl h
        split at h
        · obtain ⟨paren, us3, h3, h4⟩ := made_of h
          rw [e1] at h3
          obtain ⟨rfl, rfl⟩ := maybeToken_of hne.1 hne.2.1 h3
          cases h4
          exact ⟨e1.symm, rfl⟩
        · cases h
          exact ⟨rfl, rfl⟩
      have : ts = tokenize env.toScanEnv rest ∧ ct' = ct := by
        by_cases hd : typ' = Kw.DOUBLE
        · simp only [if_pos hd] at h2
          obtain ⟨b, us2, h3, h4⟩ := made_of h2
          rw [e1] at h3
          obtain ⟨rfl, rfl⟩ := maybeIdentifier_of hne.1 (hne.2.2 _) h3
          exact fin e1.symm h4
        · simp only [if_neg hd] at h2
          exact fin rfl h2
      exact ⟨.name typ' _ _ hm' hmem, this.1, this.2 ▸ nn hmem⟩
    · rw [e] at h1
      cases h1
      cases ht
  | size typ ct m a b d c n hm hmem hty ha hb hd hn hc =>
    simp only [List.append_assoc, List.cons_append, List.nil_append] at h1
    rcases name_first hm (a ++ 40 :: (b ++ (d ++ (c ++ 41 :: rest)))) with hm' | ⟨t, vs, e, ht⟩
    · have hnum := Lexes.numeral env.toScanEnv (s := []) (minus := false) (.inl ⟨rfl, rfl⟩) hd hn
      have toks : tokenize env.toScanEnv (m ++ (a ++ 40 :: (b ++ (d ++ (c ++ 41 :: rest))))) =
          .identifier typ :: Tok.lparen :: .integer (BitVec.ofInt 64 n) :: Tok.rparen ::
            tokenize env.toScanEnv rest := by
        rw [lexesTo_name hm', tokenize_blanks _ ha,
          show ∀ l, 40 :: l = [40] ++ l from fun _ => rfl,
          Lexes.mark env.toScanEnv (r := 40) (by decide) _ (fun _ _ => trivial), tokenize_blanks _ hb,
          show d = [] ++ d from rfl, hnum, tokenize_blanks _ hc,
          show ∀ l, 41 :: l = [41] ++ l from fun _ => rfl,
          Lexes.mark env.toScanEnv (r := 41) (by decide) _ (fun _ _ => trivial), nameToken,
          typeNames_free hmem]
        · rfl
        · refine blanks_head hc (fun c h => ⟨env.space_digit c h, ?_⟩) ?_
          · rintro rfl
            revert h
            decide
          · intro c hc
            cases hc
            exact ⟨digit_false _ (by omega), by decide⟩
        · refine blanks_head ha (fun c h => endsName_space h) ?_
          intro c hc
          cases hc
          exact endsName_mark (by omega)
      rw [toks] at h1
      cases h1
      rw [typeNames_lookup hmem] at h2
      have hnd : typ' ≠ Kw.DOUBLE := by
        rintro rfl
        have := typeNames_lookup hmem
        have hd : columnTypes.lookup Kw.DOUBLE = some ⟨.float64, 8, false, false⟩ := by decide +kernel
        rw [hd] at this
        cases this
        simp at hty
      simp only [if_neg hnd, if_pos hty] at h2
      rw [bind_ok pure_ok] at h2
      rw [bind_ok (maybeToken_hit (by simp))] at h2
      obtain ⟨i, us3, h3, h4⟩ := made_of h2
      have hi : (BitVec.ofInt 64 (n : Int)).toInt = n := by
        rw [BitVec.toInt_ofInt, Int.bmod_eq_of_le] <;> omega
      have h3' : expectInteger 0 maxColumnSize (.integer (BitVec.ofInt 64 n) :: Tok.rparen ::
          tokenize env.toScanEnv rest) = .ok i us3 := h3
      unfold expectInteger at h3'
      rw [bind_ok (next_hit (by simp))] at h3'
      dsimp only at h3'
      split at h3'
      · cases h3'
      · rename_i hle
        cases h3'
        rw [bind_ok (expectTokens_hit (by simp) (by simp))] at h4
        cases h4
        rw [hi] at hle
        refine ⟨.size typ' ct m a b d c n hm' hmem hty ha hb hd ?_ hc, rfl, ?_⟩
        · unfold maxColumnSize at hle
          omega
        · show ct.notNull = false
          exact nn hmem
    · rw [e] at h1
      cases h1
      cases ht

/-! ### A column -/

theorem words_first {env : RowEnv} {ws : List ColumnWord} {l rest : List Nat}
    (h : WordsText (NameText env) ws l) (hf : First stopToken (tokenize env.toScanEnv rest)) :
    First afterType (tokenize env.toScanEnv (l ++ rest)) := by
  cases h with
  | nil =>
    obtain ⟨t, us, e, ht⟩ := hf
    exact ⟨t, us, e, by simp [afterType, ht]⟩
  | cons w a m b n ws l ha hm hb hn hw hs =>
    simp only [List.append_assoc]
    rw [tokenize_blanks _ ha]
    rcases name_first hm (b ++ (n ++ (l ++ rest))) with hm' | ⟨t, vs, e, ht⟩
    · rw [lexesTo_name hm' _ (endsName_gap hb), (nameToken_word w).1]
      refine ⟨_, _, rfl, ?_⟩
      cases w <;> decide
    · exact ⟨t, vs, e, by simp [afterType, ht]⟩

/-- `KEY` after `PRIMARY` is not followed by a parenthesis. -/
theorem words_no_key {env : RowEnv} {ws : List ColumnWord} {l rest : List Nat} {us : List Token}
    (h : WordsText (NameText env) ws l)
    (hr : ∀ c, rest.head? = some c → EndsName env.toScanEnv c)
    (hf : First stopToken (tokenize env.toScanEnv rest)) :
    tokenize env.toScanEnv (l ++ rest) ≠ .reserved Kw.PRIMARY :: .reserved Kw.KEY :: Tok.lparen :: us := by
  intro e
  cases h with
  | nil =>
    obtain ⟨t, us, e', ht⟩ := hf
    rw [List.nil_append, e'] at e
    cases e
    cases ht
  | cons w a m b n ws l ha hm hb hn hw hs =>
    simp only [List.append_assoc] at e
    rw [tokenize_blanks _ ha] at e
    have hr' := endsName_words hw hs hr
    rcases name_first hm (b ++ (n ++ (l ++ rest))) with hm' | ⟨t, vs, e', ht⟩
    · rw [lexesTo_name hm' _ (endsName_gap hb), (nameToken_word w).1, tokenize_blanks _ hb.2] at e
      rw [List.singleton_append] at e
      injection e with e1 e2
      rcases name_first hn (l ++ rest) with hn' | ⟨t, vs, e', ht⟩
      · rw [lexesTo_name hn' _ hr', List.singleton_append] at e2
        injection e2 with e3 e4
        obtain ⟨t, vs, e5, ht⟩ := words_first hw hf
        rw [e5] at e4
        cases e4
        revert ht
        decide
      · rw [e'] at e2
        cases e2
        cases ht
    · rw [e'] at e
      cases e
      cases ht

theorem type_first {env : RowEnv} {ct : ColumnType} {sized : Bool} {t rest : List Nat}
    (h : SizedText (NameText env) (2 ^ 63) ct sized t)
    (hr : ∀ c, rest.head? = some c → sized = false → EndsName env.toScanEnv c) :
    First oddToken (tokenize env.toScanEnv (t ++ rest)) ∨
      ∃ typ us, tokenize env.toScanEnv (t ++ rest) = .identifier typ :: us ∧ typ ≠ 0 ∧
        (us = tokenize env.toScanEnv rest ∨ First (· == Tok.lparen) us) := by
  have nz : ∀ {w ct}, (w, ct) ∈ typeNames → w ≠ 0 := by
    intro w ct h
    exact (by decide : ∀ p ∈ typeNames, p.1 ≠ 0) _ h
  cases h with
  | name typ _ m hm hmem =>
    rcases name_first hm rest with hm' | h
    · rw [lexesTo_name hm' rest fun c hc => hr c hc rfl, nameToken, typeNames_free hmem]
      exact .inr ⟨typ, _, rfl, nz hmem, .inl rfl⟩
    · exact .inl h
  | size typ ct m a b d c n hm hmem hty ha hb hd hn hc =>
    simp only [List.append_assoc, List.cons_append, List.nil_append]
    rcases name_first hm (a ++ 40 :: (b ++ (d ++ (c ++ 41 :: rest)))) with hm' | h
    · rw [lexesTo_name hm', nameToken, typeNames_free hmem, tokenize_blanks _ ha,
        show ∀ l, 40 :: l = [40] ++ l from fun _ => rfl,
        Lexes.mark env.toScanEnv (r := 40) (by decide) _ (fun _ _ => trivial)]
      · exact .inr ⟨typ, _, rfl, nz hmem, .inr ⟨_, _, rfl, rfl⟩⟩
      · refine blanks_head ha (fun c h => endsName_space h) ?_
        intro c hc
        cases hc
        exact endsName_mark (by omega)
    · exact .inl h

theorem column_only {env : RowEnv} {p : Parsers} {d : ColumnDef} {l rest : List Nat}
    {s s' : CreateTable} {ts : List Token} (h : ColumnText (NameText env) (2 ^ 63) d l)
    (hr : ∀ c, rest.head? = some c → EndsName env.toScanEnv c)
    (hf : First stopToken (tokenize env.toScanEnv rest)) (ho : OnePrimary s)
    (hp : p.createDetail env.toParseEnv s (tokenize env.toScanEnv (l ++ rest)) = .ok s' ts) :
    First oddToken ts ∨ ts = tokenize env.toScanEnv rest ∧
      ColumnText (StatementName env) (2 ^ 32 - 1) d l ∧ d.name ∉ s.columns ∧
      isReserved d.name = false ∧ d.words.count .notNull ≤ 1 ∧ OnePrimary s' ∧
      s'.constraints.length = s.constraints.length + d.words.count .primaryKey ∧
      s'.columns = s.columns ++ [d.name] := by
  cases h with
  | mk name ct sized words a m b t l ha hm hb ht hw hs =>
    simp only [List.append_assoc] at hp
    rw [tokenize_blanks _ ha] at hp
    have hrw : ∀ c, (l ++ rest).head? = some c → sized = false → EndsName env.toScanEnv c :=
      fun c hc hsz => endsName_words hw (hs hsz) hr c hc
    have hfirst := words_first hw hf
    unfold Parsers.createDetail at hp
    rcases name_first hm (b ++ (t ++ (l ++ rest))) with hm' | ⟨t0, vs, e, ht0⟩
    · rw [lexesTo_name hm' _ (endsName_gap hb), tokenize_blanks _ hb.2] at hp
      by_cases hres : isReserved name = true
      · exfalso
        simp only [nameToken, hres, if_true, List.singleton_append] at hp
        have notLparen : ∀ {a : Token} {r : List Token},
            expectTokens [Tok.lparen] (tokenize env.toScanEnv (t ++ (l ++ rest))) ≠ .ok a r := by
          intro a r h
          obtain ⟨h1, h2⟩ := expectTokens_of (by simp) h
          simp at h1
          subst h1
          rcases type_first ht hrw with ⟨t1, vs, e, h3⟩ | ⟨typ, vs, e, _⟩
          · rw [e] at h2
            cases h2
            cases h3
          · rw [e] at h2
            cases h2
        have notKey : ∀ {ids : List Identifier} {a : Identifier} {r : List Token},
            expectReserved ids (tokenize env.toScanEnv (t ++ (l ++ rest))) ≠ .ok a r := by
          intro ids a r h
          obtain ⟨_, h2⟩ := expectReserved_of h
          rcases type_first ht hrw with ⟨t1, vs, e, h3⟩ | ⟨typ, vs, e, _⟩
          · rw [e] at h2
            cases h2
            cases h3
          · rw [e] at h2
            cases h2
        by_cases hcon : name = Kw.CONSTRAINT
        · subst hcon
          obtain ⟨n, us, h1, h2⟩ := made_of hp
          unfold parseConstraintName at h1
          obtain ⟨o, us1, h3, h4⟩ := made_of h1
          unfold clause at h3
          rw [bind_ok (optionalReserved_hit (by simp)), if_pos rfl] at h3
          obtain ⟨x, us2, h5, h6⟩ := made_of h3
          cases h6
          cases h4
          have h5 := expectIdentifier_of h5
          rcases type_first ht hrw with ⟨t1, vs, e, h7⟩ | ⟨typ, vs, e, hz, h7⟩
          · rw [e] at h5
            cases h5
            cases h7
          · rw [e] at h5
            cases h5
            obtain ⟨o, us3, h8, h9⟩ := made_of h2
            have none : ∀ {us3 : List Token}, ((if x ≠ 0 then error else p.column env.toParseEnv s :
                P CreateTable) us3) ≠ .ok s' ts := by
              intro us3 h
              rw [if_pos hz] at h
              cases h
            rcases h7 with h7 | ⟨t1, vs, h7, h10⟩
            · obtain ⟨t1, vs, h10, h11⟩ := hfirst
              have he : t1 ≠ .eof := by rintro rfl; cases h11
              have h12 := h7.trans h10
              rw [h12] at h8
              rcases optionalReservedId_of he h8 with ⟨id, hid, rfl, rfl, rfl⟩ | ⟨_, rfl, rfl⟩
              · have hid : id = Kw.PRIMARY := by
                  have : id = Kw.PRIMARY ∨ id = Kw.NOT := by
                    simpa [afterType, stopToken, oddToken] using h11
                  rcases this with h | rfl
                  · exact h
                  · revert hid
                    decide
                subst hid
                dsimp only at h9
                rw [if_pos rfl] at h9
                obtain ⟨_, _, h13, h14⟩ := made_of h9
                obtain ⟨h15, rfl⟩ := expectReserved_of h13
                simp at h15
                subst h15
                obtain ⟨_, _, h16, _⟩ := made_of h14
                unfold parseKey at h16
                obtain ⟨_, _, h17, _⟩ := made_of h16
                obtain ⟨h18, rfl⟩ := expectTokens_of (by simp) h17
                simp at h18
                subst h18
                exact words_no_key hw hr hf h10
              · exact none h9
            · have h10 : t1 = Tok.lparen := by simpa using h10
              subst h10
              rw [h7] at h8
              rcases optionalReservedId_of (by simp) h8 with ⟨id, hid, e, _, _⟩ | ⟨_, rfl, rfl⟩
              · cases e
              · exact none h9
        · obtain ⟨n, us, h1, h2⟩ := made_of hp
          obtain ⟨rfl, rfl⟩ := constraintName_of (by simp) (by simpa using hcon) h1
          obtain ⟨o, us3, h8, h9⟩ := made_of h2
          rcases optionalReservedId_of (by simp) h8 with ⟨id, hid, e, rfl, rfl⟩ | ⟨_, rfl, rfl⟩
          · cases e
            dsimp only at h9
            split at h9
            · obtain ⟨_, _, h10, _⟩ := made_of h9
              exact notKey h10
            split at h9
            · unfold parseKey at h9
              obtain ⟨_, _, h10, _⟩ := made_of h9
              obtain ⟨_, _, h11, _⟩ := made_of h10
              exact notLparen h11
            split at h9
            · obtain ⟨_, _, h10, _⟩ := made_of h9
              exact notLparen h10
            · obtain ⟨_, _, h10, _⟩ := made_of h9
              exact notKey h10
          · unfold Parsers.column at h9
            obtain ⟨_, _, h10, _⟩ := made_of h9
            have := expectIdentifier_of h10
            cases this
      · have hres : isReserved name = false := by simpa using hres
        simp only [nameToken, hres, List.singleton_append] at hp
        obtain ⟨n, us, h1, h2⟩ := made_of hp
        obtain ⟨rfl, rfl⟩ := constraintName_of (by simp) (by simp) h1
        obtain ⟨o, us3, h8, h9⟩ := made_of h2
        rcases optionalReservedId_of (by simp) h8 with ⟨id, hid, e, rfl, rfl⟩ | ⟨_, rfl, rfl⟩
        · cases e
        · unfold Parsers.column at h9
          obtain ⟨nam, us, h10, h11⟩ := made_of h9
          have h10 := expectIdentifier_of h10
          cases h10
          split at h11
          · cases h11
          · rename_i hnam
            obtain ⟨ct', us4, h12, h13⟩ := made_of h11
            obtain ⟨h14, rfl, h15⟩ := type_only ht hrw hfirst h12
            obtain ⟨st, us5, h16, h17⟩ := made_of h13
            cases h17
            unfold loop at h16
            rcases words_only hw hr hf ho h16 with h18 | ⟨h18, h19, h20, h21, h22, h23, h24⟩
            · exact .inl h18
            · exact .inr ⟨h18, .mk name ct sized words a m b t l ha hm' hb h14 h19 hs, hnam, hres, h20,
                h22, h23, h24⟩
    · exfalso
      rw [e] at hp
      have : t0 ≠ .eof ∧ ∀ id, t0 ≠ .reserved id := by cases t0 <;> simp_all [oddToken]
      obtain ⟨n, us, h1, h2⟩ := made_of hp
      obtain ⟨rfl, rfl⟩ := constraintName_of this.1 (this.2 _) h1
      obtain ⟨o, us3, h8, h9⟩ := made_of h2
      rcases optionalReservedId_of this.1 h8 with ⟨id, hid, e', rfl, rfl⟩ | ⟨_, rfl, rfl⟩
      · exact this.2 _ e'
      · unfold Parsers.column at h9
        obtain ⟨_, _, h10, _⟩ := made_of h9
        have := expectIdentifier_of h10
        cases this
        cases ht0

/-! ### The columns -/

theorem columns_only {env : RowEnv} {p : Parsers} {ds : List ColumnDef} {l : List Nat}
    (h : ColumnsText (NameText env) (2 ^ 63) ds l) : ∀ {n : Nat} {s s' : CreateTable} {e : List Nat}
    {ts : List Token}, OnePrimary s → s.columns.Nodup →
    loopFuel (fun s => do
      let s ← p.createDetail env.toParseEnv s
      let t ← expectTokens [Tok.comma, Tok.rparen]
      pure (s, t == Tok.comma)) n s (tokenize env.toScanEnv (l ++ 41 :: e)) = .ok s' ts →
    ColumnsText (StatementName env) (2 ^ 32 - 1) ds l ∧ (s.columns ++ ds.map (·.name)).Nodup ∧
      (∀ d ∈ ds, isReserved d.name = false) ∧ (∀ d ∈ ds, d.words.count .notNull ≤ 1) ∧
      s.constraints.length + (ds.map fun d => d.words.count .primaryKey).sum ≤ 1 := by
  have step : ∀ {d : ColumnDef} {l b : List Nat} {m : Nat} {rest : List Nat} {s s1 : CreateTable}
      {t : Token} {us vs : List Token}, ColumnText (NameText env) (2 ^ 63) d l → Blanks b →
      (m = 44 ∨ m = 41) → OnePrimary s →
      p.createDetail env.toParseEnv s (tokenize env.toScanEnv (l ++ (b ++ m :: rest))) = .ok s1 us →
      expectTokens [Tok.comma, Tok.rparen] us = .ok t vs →
      t = .rune m ∧ vs = tokenize env.toScanEnv rest ∧
      ColumnText (StatementName env) (2 ^ 32 - 1) d l ∧ d.name ∉ s.columns ∧
      isReserved d.name = false ∧ d.words.count .notNull ≤ 1 ∧ OnePrimary s1 ∧
      s1.constraints.length = s.constraints.length + d.words.count .primaryKey ∧
      s1.columns = s.columns ++ [d.name] := by
    intro d l b m rest s s1 t us vs h hb hm ho h1 h2
    have hmark : tokenize env.toScanEnv (b ++ m :: rest) = .rune m :: tokenize env.toScanEnv rest := by
      rw [tokenize_blanks _ hb, show ∀ l, m :: l = [m] ++ l from fun _ => rfl]
      rcases hm with rfl | rfl
      · exact Lexes.mark env.toScanEnv (r := 44) (by decide) _ (fun _ _ => trivial)
      · exact Lexes.mark env.toScanEnv (r := 41) (by decide) _ (fun _ _ => trivial)
    have hstop : First stopToken (tokenize env.toScanEnv (b ++ m :: rest)) :=
      ⟨_, _, hmark, by rcases hm with rfl | rfl <;> decide⟩
    have hends : ∀ c, (b ++ m :: rest).head? = some c → EndsName env.toScanEnv c := by
      refine blanks_head hb (fun c h => endsName_space h) ?_
      intro c hc
      cases hc
      rcases hm with rfl | rfl
      · exact endsName_mark (by omega)
      · exact endsName_mark (by omega)
    obtain ⟨h3, rfl⟩ := expectTokens_of (by simp) h2
    rcases column_only h hends hstop ho h1 with ⟨t', us, e, h4⟩ | ⟨h4, h5⟩
    · cases e
      simp at h3
      rcases h3 with rfl | rfl <;> cases h4
    · rw [hmark] at h4
      cases h4
      exact ⟨rfl, rfl, h5⟩
  induction h with
  | last d l b h1 h2 =>
    intro n s s' e ts ho hn h
    simp only [List.append_assoc] at h
    obtain ⟨k, s1, again, us, rfl, h3, h4⟩ := loop_made h
    obtain ⟨s2, us2, h5, h6⟩ := made_of h3
    obtain ⟨t, us3, h7, h8⟩ := made_of h6
    cases h8
    obtain ⟨_, _, a1, a2, a3, a4, a5, a6, a7⟩ := step h1 h2 (.inr rfl) ho h5 h7
    refine ⟨.last d l b a1 h2, ?_, by simpa using a3, by simpa using a4, ?_⟩
    · rw [List.nodup_append]
      refine ⟨hn, by simp, ?_⟩
      rintro x hx y hy rfl
      simp at hy
      exact a2 (hy ▸ hx)
    · have := a5.1
      simp
      omega
  | more d l b ds m h1 h2 _ ih =>
    intro n s s' e ts ho hn h
    simp only [List.append_assoc, List.cons_append, List.nil_append] at h
    obtain ⟨k, s1, again, us, rfl, h3, h4⟩ := loop_made h
    obtain ⟨s2, us2, h5, h6⟩ := made_of h3
    obtain ⟨t, us3, h7, h8⟩ := made_of h6
    cases h8
    obtain ⟨rfl, rfl, a1, a2, a3, a4, a5, a6, a7⟩ := step h1 h2 (.inl rfl) ho h5 h7
    have hn' : (s1.columns).Nodup := by
      rw [a7, List.nodup_append]
      refine ⟨hn, by simp, ?_⟩
      rintro x hx y hy rfl
      simp at hy
      exact a2 (hy ▸ hx)
    obtain ⟨b1, b2, b3, b4, b5⟩ := ih a5 hn' h4
    refine ⟨.more d l b ds m a1 h2 b1, ?_, ?_, ?_, ?_⟩
    · rw [a7] at b2
      simpa using b2
    · simpa using ⟨a3, b3⟩
    · simpa using ⟨a4, b4⟩
    · simp
      omega

/-- The tokens of `CREATE TABLE`, a name, and what is in parentheses. -/
theorem create_tokens {env : RowEnv} {create table t b c d : List Nat} {tid : Identifier}
    (h1 : StatementName env Kw.CREATE create) (hb : Gap b)
    (h2 : StatementName env Kw.TABLE table) (hc : Gap c) (h3 : StatementName env tid t)
    (ht : isReserved tid = false) (hd : Blanks d) (rest : List Nat) :
    tokenize env.toScanEnv (create ++ b ++ table ++ c ++ t ++ d ++ [40] ++ rest) =
      .reserved Kw.CREATE :: .reserved Kw.TABLE :: .identifier tid :: Tok.lparen ::
        tokenize env.toScanEnv rest := by
  simp only [List.append_assoc, List.cons_append, List.nil_append]
  rw [lexesTo_name h1 _ (endsName_gap hb), tokenize_blanks _ hb.2, lexesTo_name h2 _ (endsName_gap hc),
    tokenize_blanks _ hc.2, lexesTo_name h3, tokenize_blanks _ hd,
    show ∀ l, 40 :: l = [40] ++ l from fun _ => rfl,
    Lexes.mark env.toScanEnv (r := 40) (by decide) _ (fun _ _ => trivial)]
  · simp only [nameToken, ht]
    rfl
  · refine blanks_head hd (fun c h => endsName_space h) ?_
    intro c hc
    cases hc
    exact endsName_mark (by omega)

/-- What is in the parentheses of `CREATE TABLE` has been read by the loop over the columns. -/
theorem create_of {env : ParseEnv} {tid : Identifier} {us : List Token} {s : Option Stmt}
    (h : (parse env false (.reserved Kw.CREATE :: .reserved Kw.TABLE :: .identifier tid ::
      Tok.lparen :: us)).1 = .stmt s) :
    ∃ (p : Parsers) (n : Nat) (s' : CreateTable) (ts : List Token), loopFuel (fun s => do
      let s ← p.createDetail env s
      let t ← expectTokens [Tok.comma, Tok.rparen]
      pure (s, t == Tok.comma)) n ⟨⟨0, 0, tid⟩, [], [], [], false, [], []⟩ us = .ok s' ts := by
  unfold parse at h
  simp only [Bool.false_eq_true, if_false] at h
  unfold parseRecover at h
  split at h
  · rename_i s1 rest hp
    unfold parseStmtEnd at hp
    generalize parsers env _ = p at hp
    obtain ⟨s2, us2, h1, _⟩ := made_of hp
    unfold Parsers.stmt at h1
    obtain ⟨b, us3, h2, h3⟩ := made_of h1
    obtain ⟨rfl, rfl⟩ := maybeToken_of (by simp) (by simp) h2
    rw [if_neg (by simp), bind_ok (expectReserved_hit (by decide))] at h3
    unfold Parsers.afterKeyword at h3
    rw [if_neg (by decide), if_neg (by decide), if_neg (by decide), if_neg (by decide),
      if_pos rfl] at h3
    obtain ⟨s3, us4, h4, _⟩ := made_of h3
    unfold Parsers.create at h4
    rw [bind_ok (expectReserved_hit (by decide)), if_neg (by decide), if_neg (by decide),
      if_neg (by decide), if_pos rfl] at h4
    obtain ⟨s4, us5, h5, _⟩ := made_of h4
    unfold Parsers.createTable at h5
    obtain ⟨b, us6, h6, h7⟩ := made_of h5
    obtain ⟨rfl, rfl⟩ : b = false ∧ us6 = .identifier tid :: Tok.lparen :: us := by
      unfold parseIfNotExists clause at h6
      obtain ⟨o, us7, h8, h9⟩ := made_of h6
      obtain ⟨b, us8, h10, h11⟩ := made_of h8
      obtain ⟨o, us9, h12, h13⟩ := made_of h10
      rcases optionalReservedId_of (by simp) h12 with ⟨id, _, e, _⟩ | ⟨_, rfl, rfl⟩
      · cases e
      · cases h13
        cases h11
        cases h9
        exact ⟨rfl, rfl⟩
    obtain ⟨tn, us7, h8, h9⟩ := made_of h7
    obtain ⟨rfl, rfl⟩ : tn = ⟨0, 0, tid⟩ ∧ us7 = Tok.lparen :: us := by
      unfold parseTableName at h8
      obtain ⟨id, us8, h10, h11⟩ := made_of h8
      have h10 := expectIdentifier_of h10
      cases h10
      obtain ⟨b, us9, h12, h13⟩ := made_of h11
      obtain ⟨rfl, rfl⟩ := maybeToken_of (by simp) (by decide) h12
      cases h13
      exact ⟨rfl, rfl⟩
    rw [bind_ok (expectTokens_hit (by simp) (by simp))] at h9
    exact ⟨p, _, s4, us5, h9⟩
  all_goals cases h

end Maho
