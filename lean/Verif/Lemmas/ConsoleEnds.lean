import Verif.Lemmas.Console
/-
Helper lemmas for C72 and C73: the console and scripts end on every text.
-/
namespace Maho
open Maho.Spec

/-! ### The text that is left -/

/-- `RuneReader` does not add anything to the text. -/
theorem Scanner.runeReader_shorter {s : Scanner} {l : List Nat} (h : Tracks false none s l) :
    ∃ l', Tracks false none s.runeReader l' ∧ l'.length ≤ l.length := by
  obtain ⟨h1, h2, -⟩ := h
  have e : s.runeReader.runes = nextLine s.runes ∧ s.runeReader.unread = s.unread ∧
      s.runeReader.read = s.read := by
    unfold runeReader
    rw [skipLine_eq]
    exact ⟨rfl, rfl, rfl⟩
  refine ⟨_, ⟨rfl, ?_, fun T eT => by cases eT⟩, ?_⟩
  · rw [e.1, e.2.1, e.2.2]
    intro hu
    rcases h2 hu with ⟨g1, g2, g3⟩ | h
    · exact .inl ⟨g1, by rw [g2]; rfl, g3⟩
    · exact .inr h
  · subst h1
    unfold Scanner.rest
    rw [e.1, e.2.1, e.2.2, List.length_append, List.length_append]
    have := nextLine_length s.runes
    omega

/-- Tokens take runes. -/
theorem restAfter_lt {env : ScanEnv} {ts : List Token} {l : List Nat} {base p p2 : Nat}
    (hb : ts.drop base = tokenize env l) (h1 : base ≤ p) (h2 : p < p2) (h3 : p < ts.length) :
    (restAfter env false l (p2 - base)).length < (restAfter env false l (p - base)).length := by
  have hne : restAfter env false l (p - base) ≠ [] := by
    intro h
    have := tokenize_drop env l (p - base)
    rw [h, tokenize_nil, ← hb, List.drop_drop] at this
    have := congrArg List.length this
    rw [List.length_drop, List.length_nil] at this
    omega
  have e : p2 - base = (p - base) + (1 + (p2 - p - 1)) := by omega
  rw [e, restAfter_add, restAfter_add]
  refine Nat.lt_of_le_of_lt (restAfter_suffix env _ _).length_le ?_
  exact scan_rest_lt env hne

/-- Nothing is left after token.EOF. -/
theorem restAfter_end {env : ScanEnv} {ts : List Token} {l : List Nat} {base p : Nat}
    (hb : ts.drop base = tokenize env l) (h1 : base ≤ p) (h2 : ts.length ≤ p) :
    restAfter env false l (p + 1 - base) = [] := by
  have : p + 1 - base = (p - base) + 1 := by omega
  rw [this]
  apply scan_eof
  have h := stream_tokenize env l (p - base)
  unfold tokenAt at h
  rw [← h, ← hb, stream_drop]
  unfold RP.stream
  rw [List.getD_eq_getElem?_getD, List.getElem?_eq_none (by omega)]
  rfl

/-- What has been scanned stays when the input is moved. -/
theorem stream_at (env : ScanEnv) (ts : List Token) (n : Nat) (s : Scanner) {i : Nat} (h : i < n) :
    RP.stream (Input.at env ts n s).tokens i = RP.stream ts i := by
  unfold Input.at
  conv => lhs; unfold RP.stream
  rw [List.getD_eq_getElem?_getD, List.getElem?_append_left (by simpa using h)]
  simp [h, RP.stream]

theorem stream_at_end (env : ScanEnv) (ts : List Token) (n : Nat) (s : Scanner) :
    RP.stream (Input.at env ts n s).tokens n = RP.stream (s.tokens env s.fuel) 0 := by
  unfold Input.at RP.stream
  rw [List.getD_eq_getElem?_getD, List.getElem?_append_right (by simp)]
  simp [List.getD_eq_getElem?_getD]

/-- The end of a statement: one token is taken. -/
theorem expectEnd_at {ts : List Token} {r : Ring} {p : Nat} (h : At ts r p) :
    ∃ r2, At ts r2 (p + 1) ∧ r2.scanned = max r.scanned (p + 1) ∧
      (RP.expectEndOfStatement ts r = .ok () r2 ∨
        (RP.stream ts p ≠ .eof ∧ ((∃ b, RP.expectEndOfStatement ts r = .fail b r2) ∨
          RP.expectEndOfStatement ts r = .panic))) := by
  obtain ⟨e1, e2, e3⟩ := h.holds.scan
  refine ⟨(r.scan (RP.stream ts)).2, ⟨e2, fun i h1 h2 => h.clean i (by omega) (by omega)⟩, e3, ?_⟩
  show RP.bind RP.next _ ts r = _ ∨ _ ≠ _ ∧ ((∃ b, RP.bind RP.next _ ts r = _) ∨ RP.bind RP.next _ ts r = _)
  unfold RP.bind RP.next
  dsimp only
  rw [e1]
  by_cases hc : r.unscanned = 0 ∧ RP.stream ts p = .error false
  · rw [if_pos hc]
    exact .inr ⟨by rw [hc.2]; simp, .inl ⟨_, rfl⟩⟩
  · rw [if_neg hc]
    dsimp only
    by_cases ht : RP.stream ts p = .eof ∨ RP.stream ts p = .endOfStatement
    · rw [if_pos ht]
      exact .inl rfl
    · rw [if_neg ht]
      refine .inr ⟨fun h => ht (.inl h), ?_⟩
      show (∃ b, (if _ = Token.error true then RP.crash else RP.error : RP Unit) ts _ = _) ∨
        (if _ = Token.error true then RP.crash else RP.error : RP Unit) ts _ = _
      split
      · exact .inr rfl
      · exact .inl ⟨_, rfl⟩

/-! ### The parser between calls -/

/-- There are at most `M` runes left. -/
structure Going (env : ParseEnv) (q : Parser) (M : Nat) : Prop where
  eof : Token.eof ∉ q.input.tokens
  place : ∃ p l, q.input.base ≤ p ∧ q.input.base ≤ q.input.tokens.length ∧ At q.input.tokens q.ring p ∧
    Scanner.Tracks false none q.input.scanner l ∧
    q.input.tokens.drop q.input.base = tokenize env.toScanEnv l ∧
    (restAfter env.toScanEnv false l (p - q.input.base)).length ≤ M

/-- The next token is token.EOF. -/
def AtEnd (q : Parser) : Prop := ∃ p, At q.input.tokens q.ring p ∧ RP.stream q.input.tokens p = .eof

theorem Going.new (env : ParseEnv) (L : List Nat) : Going env (Parser.new env L) L.length := by
  have ht : Scanner.Tracks false none (Scanner.init L) L :=
    ⟨rfl, (fun h => by cases h), fun T eT => by cases eT⟩
  have e : (Parser.new env L).input.tokens = tokenize env.toScanEnv L := by
    show (Input.at env.toScanEnv [] 0 (Scanner.init L)).tokens = _
    rw [at_tokens _ (Nat.zero_le _), Scanner.tokens_eq _ ht]
    rfl
  refine ⟨?_, 0, L, Nat.le_refl _, Nat.zero_le _, At.new, ht, e, Nat.le_refl _⟩
  rw [e]
  exact eof_not_mem_tokenize _ _

theorem AtEnd.parse {env : ParseEnv} {q : Parser} (h : AtEnd q) : (q.parse env).1 = .eof := by
  obtain ⟨p, ha, he⟩ := h
  have e : RP.scanRune q.input.tokens q.ring = (some .eof, (q.ring.scan (RP.stream q.input.tokens)).2) := by
    unfold RP.scanRune
    dsimp only
    rw [ha.holds.scan.1, he, if_neg (by simp)]
  unfold Parser.parse
  rw [e]

/-- A parser that has taken tokens. -/
theorem Going.taken {env : ParseEnv} {q : Parser} {M p p2 : Nat} {l : List Nat}
    (he : Token.eof ∉ q.input.tokens) (h1 : q.input.base ≤ p) (h2 : q.input.base ≤ q.input.tokens.length)
    (ht : Scanner.Tracks false none q.input.scanner l)
    (hb : q.input.tokens.drop q.input.base = tokenize env.toScanEnv l)
    (hM : (restAfter env.toScanEnv false l (p - q.input.base)).length ≤ M)
    {b : Bool} {r : Ring} (ha : At q.input.tokens r p2)
    (hlt : (q.input.tokens.drop p2).length < (q.input.tokens.drop p).length) :
    ∃ M' < M, Going env ⟨b, r, q.input⟩ M' := by
  rw [List.length_drop, List.length_drop] at hlt
  have := restAfter_lt hb h1 (p2 := p2) (by omega) (by omega)
  exact ⟨_, Nat.lt_of_lt_of_le this hM, he, p2, l, by dsimp only; omega, h2, ha, ht, hb, Nat.le_refl _⟩

/-- What a call of `Parse` does to a parser with at most `M` runes left. -/
def Steps (env : ParseEnv) (M : Nat) (x : Parsed × Option Nat × Parser) : Prop :=
  x.1 = .panic ∨ x.1 = .eof ∨
    (((∃ s, x.1 = .stmt s) ∨ x.1 = .error) ∧ 0 < M ∧ (AtEnd x.2.2 ∨ ∃ M' < M, Going env x.2.2 M'))

/-- COPY. -/
theorem Going.copy {env : ParseEnv} {q : Parser} {M p p2 : Nat} {l : List Nat} {tl : List Token}
    (he : Token.eof ∉ q.input.tokens) (h1 : q.input.base ≤ p) (h2 : q.input.base ≤ q.input.tokens.length)
    (ht : Scanner.Tracks false none q.input.scanner l)
    (hb : q.input.tokens.drop q.input.base = tokenize env.toScanEnv l)
    (hM : (restAfter env.toScanEnv false l (p - q.input.base)).length ≤ M)
    {r : Ring} (ha : At q.input.tokens r p2) (hp : p ≤ p2)
    (hd : q.input.tokens.drop p2 = .reserved Kw.COPY :: tl) :
    Steps env M (Parser.recover env q.input r) := by
  have hlen : tl.length + 1 = q.input.tokens.length - p2 := by
    rw [← List.length_drop, hd]
    rfl
  have hM0 : 0 < M := by
    have := restAfter_lt (p2 := p + 1) hb h1 (by omega) (by omega)
    omega
  -- the keyword
  obtain ⟨r4, p4, hk, ha4, e4, hstd⟩ : ∃ r4 p4, RP.keyword q.input.tokens r = .ok (some Kw.COPY) r4 ∧
      At q.input.tokens r4 p4 ∧ tl = q.input.tokens.drop p4 ∧ Std q.input.tokens p4 r4.unscanned := by
    have hk := sim_keyword he r p2 ha trivial
    rw [hd, keyword_eq] at hk
    revert hk
    cases RP.keyword q.input.tokens r with
    | ok o r4 =>
      rintro ⟨rfl, p4, g1, g2, g3⟩
      exact ⟨r4, p4, rfl, g1, g2, g3 (by simp)⟩
    | _ => exact fun h => h.elim
  -- the statement
  have hs := sim_copyPlace he r4 p4 ha4 hstd
  rw [← e4] at hs
  have hB : Token.eof ∉ tl := by
    rw [e4]
    exact fun h => he (List.mem_of_mem_drop h)
  have ho := GoodParsers.parseCopy hB (n := tl.length + 1) tl (List.suffix_refl _) (Nat.lt_succ_self _)
  unfold Parser.recover Input.stmt
  rw [hk]
  dsimp only
  rw [if_pos rfl]
  revert hs ho
  cases parseCopy tl with
  | panic =>
    cases RP.parseCopy q.input.tokens r4 <;> intro hs _ <;> first | exact hs.elim | exact .inl rfl
  | stuck => intro _ ho; exact ho.elim
  | fail b rest =>
    cases RP.parseCopy q.input.tokens r4 <;> intro hs ho <;> try exact hs.elim
    rename_i b' r5
    obtain ⟨-, p5, ha5, e5⟩ := hs
    have hlt := List.IsSuffix.length_le ho
    refine .inr (.inr ⟨.inr rfl, hM0, .inr ?_⟩)
    refine Going.taken he h1 h2 ht hb hM ha5 ?_
    rw [← e5, List.length_drop]
    omega
  | ok t rest =>
    cases RP.parseCopy q.input.tokens r4 <;> intro hs ho <;> try exact hs.elim
    rename_i t' r5
    obtain ⟨-, p5, ha5, e5, -, hac⟩ := hs
    have hlt := ho.2.1
    rw [e5, List.length_drop] at hlt
    have hplace := ha5.holds.place
    have hp5 : p5 ≤ q.input.tokens.length := by
      rcases Nat.lt_or_ge q.input.tokens.length p5 with h | h
      · exfalso
        have : before q.input.tokens p5 = .eof := (stream_eof he _).2 (by omega)
        rcases hac with ⟨e, -⟩ | ⟨⟨b, e⟩, -⟩ <;> rw [this] at e <;> cases e
      · exact h
    have hu : r5.unscanned ≤ 1 := by
      rcases hac with ⟨-, e⟩ | ⟨-, e⟩ <;> omega
    have htrack := ht.after env.toScanEnv (fun _ => ⟨0, 0⟩) (r5.scanned - q.input.base)
    obtain ⟨l', ht', hl'⟩ := Scanner.runeReader_shorter htrack
    change Scanner.Tracks false none (q.input.now env.toScanEnv r5).runeReader l' at ht'
    dsimp only
    generalize (q.input.now env.toScanEnv r5).runeReader = sc at ht' ⊢
    have hts := Scanner.tokens_eq env.toScanEnv ht'
    have ha5' : At (Input.at env.toScanEnv q.input.tokens r5.scanned sc).tokens r5 p5 :=
      ha5.congr fun i hi => stream_at _ _ _ _ hi
    obtain ⟨r6, ha6, hs6, hend⟩ := expectEnd_at ha5'
    -- where the parser then is
    have hafter : ∀ b, AtEnd ⟨b, r6, .at env.toScanEnv q.input.tokens r5.scanned sc⟩ ∨
        ∃ M' < M, Going env ⟨b, r6, .at env.toScanEnv q.input.tokens r5.scanned sc⟩ M' := by
      intro b
      rcases Nat.lt_or_ge q.input.tokens.length r5.scanned with h | h
      · left
        refine ⟨p5 + 1, ha6, ?_⟩
        dsimp only
        have e : r5.scanned = p5 + 1 := by omega
        have h0 := restAfter_end (p := p5) hb (by omega) (by omega)
        rw [e, h0] at hl'
        have : l' = [] := List.eq_nil_of_length_eq_zero (by simpa using hl')
        rw [e, stream_at_end, hts, this, tokenize_nil]
        rfl
      · right
        have et : (Input.at env.toScanEnv q.input.tokens r5.scanned sc).tokens =
            q.input.tokens.take r5.scanned ++ tokenize env.toScanEnv l' := by
          rw [at_tokens _ h, hts]
        have hlt : (q.input.tokens.take r5.scanned).length = r5.scanned := by
          rw [List.length_take]; omega
        have hlt2 := restAfter_lt (p2 := r5.scanned) hb h1 (by omega) (by omega)
        have hsuf := (restAfter_suffix env.toScanEnv l' (p5 + 1 - r5.scanned)).length_le
        refine ⟨(restAfter env.toScanEnv false l' (p5 + 1 - r5.scanned)).length, by omega, ?_, p5 + 1, l',
          ?_, ?_, ha6, ht', ?_, Nat.le_refl _⟩
        · dsimp only
          rw [et, List.mem_append]
          rintro (h | h)
          · exact he (List.mem_of_mem_take h)
          · exact eof_not_mem_tokenize _ _ h
        · show r5.scanned ≤ p5 + 1
          omega
        · show r5.scanned ≤ (Input.at env.toScanEnv q.input.tokens r5.scanned sc).tokens.length
          rw [et, List.length_append, hlt]
          omega
        · show (Input.at env.toScanEnv q.input.tokens r5.scanned sc).tokens.drop r5.scanned = _
          rw [et, List.drop_append_of_le_length (by omega), List.drop_eq_nil_of_le (by omega)]
          rfl
    rcases hend with hend | ⟨-, ⟨b, hend⟩ | hend⟩ <;> rw [hend]
    · exact .inr (.inr ⟨.inl ⟨_, rfl⟩, hM0, hafter _⟩)
    · exact .inr (.inr ⟨.inr rfl, hM0, hafter _⟩)
    · exact .inl rfl

/-- One call of `Parse`. -/
theorem Going.parse {env : ParseEnv} {q : Parser} {M : Nat} (h : Going env q M) :
    Steps env M (q.parse env) := by
  obtain ⟨he, p, l, h1, h2, ha, ht, hb, hM⟩ := h
  have hany := parse_any (env := env) (failed := q.failed)
    (ts := q.input.tokens.drop p) fun h => he (List.mem_of_mem_drop h)
  have hM0 : ∀ {p2}, (q.input.tokens.drop p2).length < (q.input.tokens.drop p).length → 0 < M := by
    intro p2 h
    rw [List.length_drop, List.length_drop] at h
    have := restAfter_lt (p2 := p + 1) hb h1 (by omega) (by omega)
    omega
  rcases parse_cases he env rfl ha with ⟨a, b, r, p2, e1, ha2, e2, -⟩ | ⟨r, p2, e1, ha2, e2, e3⟩
  · rw [e1]
    rw [e2] at hany
    rcases hany with ⟨h, -⟩ | ⟨h, -, hlt⟩ | ⟨h, -⟩
    · exact .inl h
    · exact .inr (.inr ⟨h, hM0 hlt, .inr (Going.taken he h1 h2 ht hb hM ha2 hlt)⟩)
    · exact .inr (.inl h)
  · have hsuf : q.input.tokens.drop p2 <:+ q.input.tokens.drop p := by
      rw [e2]
      split
      · exact afterSemicolon_suffix _
      · exact List.suffix_refl _
    rw [e1]
    by_cases hc : (q.input.tokens.drop p2).head? = some (.reserved Kw.COPY)
    · obtain ⟨tl, htl⟩ : ∃ tl, q.input.tokens.drop p2 = .reserved Kw.COPY :: tl := by
        cases hx : q.input.tokens.drop p2 with
        | nil => rw [hx] at hc; cases hc
        | cons t tl => rw [hx] at hc; cases hc; exact ⟨tl, rfl⟩
      have hlen := hsuf.length_le
      have hl2 := congrArg List.length htl
      rw [List.length_drop, List.length_drop] at hlen
      rw [List.length_drop, List.length_cons] at hl2
      exact Going.copy he h1 h2 ht hb hM ha2 (by omega) htl
    · obtain ⟨g1, g2, g3⟩ := recover_other he env rfl ha2 hc
      obtain ⟨s1, s2⟩ := same_recover he env ha2
      rw [e3] at hany
      rcases hany with ⟨h, -⟩ | ⟨h, -, hlt⟩ | ⟨h, -⟩
      · exact .inl (by rw [g1, ← s1, h])
      · have hret : (parseRecover env (q.input.tokens.drop p2)).1.returns := by
          rcases h with ⟨s, h⟩ | h <;> rw [h] <;> trivial
        obtain ⟨s3, p3, s4, s5⟩ := s2 hret
        have g3 := g3 (by rw [← s1]; exact hret)
        rw [s5] at hlt
        refine .inr (.inr ⟨by rw [g1, ← s1]; exact h, hM0 hlt, .inr ?_⟩)
        rw [g3]
        exact Going.taken he h1 h2 ht hb hM s4 hlt
      · exact .inr (.inl (by rw [g1, ← s1, h]))

/-! ### The console and scripts -/

theorem console_atEnd {env : ParseEnv} {q : Parser} (h : AtEnd q) (n : Nat) :
    q.console env (n + 1) = ([], some .ended) := by
  have e := h.parse (env := env)
  unfold Parser.console
  generalize q.parse env = x at e
  obtain ⟨a, b, c⟩ := x
  simp only at e
  subst e
  rfl

/-- The console ends. -/
theorem going_console {env : ParseEnv} : ∀ (n : Nat) (q : Parser) (M : Nat), Going env q M → M < n →
    ((q.console env n).2 = some .ended ∨ (q.console env n).2 = some .crashed) ∧
      (q.console env n).1.length ≤ M := by
  intro n
  induction n with
  | zero => intro q M _ h; omega
  | succ n ih =>
    intro q M h hn
    have hs := h.parse
    unfold Parser.console
    generalize q.parse env = x at hs
    obtain ⟨a, b, c⟩ := x
    unfold Steps at hs
    dsimp only at hs
    have next : 0 < M → (AtEnd c ∨ ∃ M' < M, Going env c M') →
        ((c.console env n).2 = some .ended ∨ (c.console env n).2 = some .crashed) ∧
        (c.console env n).1.length + 1 ≤ M := by
      rintro hM (h | ⟨M', hlt, h⟩)
      · obtain ⟨k, rfl⟩ : ∃ k, n = k + 1 := ⟨n - 1, by omega⟩
        rw [console_atEnd h]
        exact ⟨.inl rfl, hM⟩
      · obtain ⟨g1, g2⟩ := ih c M' h (by omega)
        exact ⟨g1, by omega⟩
    rcases hs with rfl | rfl | ⟨⟨s, rfl⟩ | rfl, hM, hs⟩
    · exact ⟨.inr rfl, Nat.zero_le _⟩
    · exact ⟨.inl rfl, Nat.zero_le _⟩
    · exact next hM hs
    · exact next hM hs

theorem script_atEnd {env : SqlEnv} {penv : ParseEnv} {i : Nat} {q : Parser} (h : AtEnd q) (n : Nat)
    (s : Server) : q.script env penv i (n + 1) s = ([], some .ended, s) := by
  have e := h.parse (env := penv)
  unfold Parser.script
  generalize q.parse penv = x at e
  obtain ⟨a, b, c⟩ := x
  simp only at e
  subst e
  rfl

/-- A script ends. -/
theorem going_script {env : SqlEnv} {penv : ParseEnv} {i : Nat} : ∀ (n : Nat) (q : Parser) (M : Nat)
    (s : Server), Going penv q M → M < n →
    ((q.script env penv i n s).2.1 = some .ended ∨ (q.script env penv i n s).2.1 = some .crashed) ∧
      (q.script env penv i n s).1.length ≤ M := by
  intro n
  induction n with
  | zero => intro q M s _ h; omega
  | succ n ih =>
    intro q M s h hn
    have hs := h.parse
    unfold Parser.script
    generalize q.parse penv = x at hs
    obtain ⟨a, b, c⟩ := x
    unfold Steps at hs
    dsimp only at hs
    have next : ∀ s, 0 < M → (AtEnd c ∨ ∃ M' < M, Going penv c M') →
        ((c.script env penv i n s).2.1 = some .ended ∨ (c.script env penv i n s).2.1 = some .crashed) ∧
        (c.script env penv i n s).1.length + 1 ≤ M := by
      rintro s hM (h | ⟨M', hlt, h⟩)
      · obtain ⟨k, rfl⟩ : ∃ k, n = k + 1 := ⟨n - 1, by omega⟩
        rw [script_atEnd h]
        exact ⟨.inl rfl, hM⟩
      · obtain ⟨g1, g2⟩ := ih c M' s h (by omega)
        exact ⟨g1, by omega⟩
    rcases hs with rfl | rfl | ⟨⟨t, rfl⟩ | rfl, hM, hs⟩
    · exact ⟨.inr rfl, Nat.zero_le _⟩
    · exact ⟨.inl rfl, Nat.zero_le _⟩
    · exact next _ hM hs
    · obtain ⟨g1, g2⟩ := next s hM hs
      exact ⟨g1, Nat.le_of_succ_le g2⟩

/-- The lines are those for the results of `Parse`. -/
theorem console_lines {env : ParseEnv} : ∀ (n : Nat) (q : Parser),
    (q.console env n).1 = linesOf env (q.run env (List.replicate n .parse)) := by
  intro n
  induction n with
  | zero => intro q; rfl
  | succ n ih =>
    intro q
    rw [List.replicate_succ]
    unfold Parser.console Parser.run
    generalize q.parse env = x
    obtain ⟨a, b, c⟩ := x
    cases a <;> simp only [linesOf, ih]

/-- The replies are those for the statements that `Parse` returns. -/
theorem script_stmts {env : SqlEnv} {penv : ParseEnv} {i : Nat} : ∀ (n : Nat) (q : Parser) (s : Server),
    (q.script env penv i n s).1 =
        (s.run env ((stmtsOf (q.run penv (List.replicate n .parse))).map fun t => (i, t))).1 ∧
      (q.script env penv i n s).2.2 =
        (s.run env ((stmtsOf (q.run penv (List.replicate n .parse))).map fun t => (i, t))).2 := by
  intro n
  induction n with
  | zero => intro q s; exact ⟨rfl, rfl⟩
  | succ n ih =>
    intro q s
    rw [List.replicate_succ]
    unfold Parser.script Parser.run
    generalize q.parse penv = x
    obtain ⟨a, b, c⟩ := x
    cases a <;> simp only [stmtsOf, List.map_cons, Server.run, ih, List.map_nil, and_self]

end Maho
