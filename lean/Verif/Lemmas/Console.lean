import Verif.Spec.Console
import Verif.Props.PrintStmt
import Verif.Props.Parse
import Verif.Props.Copy
import Verif.Props.Session
/-
Lemmas on the console and on scripts.
-/
namespace Maho
open Spec

/-! ### The end of the loop -/

/-- A call of `Parse` for a statement that is not COPY takes the tokens that it takes of the list. -/
theorem Follows.plain {env : ParseEnv} {L : List Nat} {q : Parser} {s : Place} (h : Follows env L q s)
    (hret : (Maho.parse env s.failed (s.tokens env)).1.returns)
    (hsuf : (Maho.parse env s.failed (s.tokens env)).2.2 <:+ s.tokens env)
    (hy : ¬ s.isCopy env) :
    ∃ q' s', q.parse env = ((Maho.parse env s.failed (s.tokens env)).1, none, q') ∧
      Follows env L q' s' ∧ s'.failed = (Maho.parse env s.failed (s.tokens env)).2.1 ∧
      s'.tokens env = (Maho.parse env s.failed (s.tokens env)).2.2 := by
  have h' := h
  obtain ⟨h0, he, p, n, m, l, h1, h2, h3, hn, h4, h5, h6, h7, h8, -⟩ := h
  have ht : q.input.tokens.drop p = s.tokens env := h5.trans (Follows.tokens h2 h7 h8)
  have hother : ∀ {a : Parsed} {b : Bool} {r : Ring} {p2 : Nat},
      q.parse env = (a, none, ⟨b, r, q.input⟩) → At q.input.tokens r p2 →
      Maho.parse env s.failed (s.tokens env) = (a, b, q.input.tokens.drop p2) →
      ∃ q' s', q.parse env = ((Maho.parse env s.failed (s.tokens env)).1, none, q') ∧
        Follows env L q' s' ∧ s'.failed = (Maho.parse env s.failed (s.tokens env)).2.1 ∧
        s'.tokens env = (Maho.parse env s.failed (s.tokens env)).2.2 := by
    intro a b r p2 e1 ha e2
    refine ⟨⟨b, r, q.input⟩, ⟨b, restAfter env.toScanEnv false s.rest (s.taken env), false⟩,
      by rw [e1, e2], h'.other ha ?_ (by rw [e2]), by rw [e2], ?_⟩
    · rw [e2] at hsuf
      exact hsuf
    · show tokenize env.toScanEnv (restAfter env.toScanEnv false s.rest (s.taken env)) = _
      rw [← tokenize_drop]
      exact (List.suffix_iff_eq_drop.1 hsuf).symm
  rcases parse_cases he env rfl h4 with
    ⟨a, b, r, p2, e1, e2, e3, -⟩ | ⟨r, p2, e1, e2, e3, e4⟩
  · rw [ht, h0] at e3
    exact hother e1 e2 e3
  · rw [ht, h0] at e3 e4
    obtain ⟨g1, g2, g3⟩ := recover_other he env (i := q.input) rfl e2 (by
      rw [e3]
      exact hy)
    obtain ⟨k1, k2⟩ := same_recover he env e2
    rw [← e4] at k1 k2
    obtain ⟨k3, p3, k4, k5⟩ := k2 hret
    refine hother (a := (Maho.parse env s.failed (s.tokens env)).1)
      (b := (Maho.parse env s.failed (s.tokens env)).2.1) ?_ k4 ?_
    · rw [e1, k1, k3, ← g1, ← g2, ← g3 (k1 ▸ hret)]
    · rw [← k5]

theorem tokenize_length (env : ScanEnv) : ∀ (n : Nat) (l : List Nat), l.length ≤ n →
    (tokenize env l).length ≤ l.length := by
  intro n
  induction n with
  | zero =>
    intro l h
    have : l = [] := List.eq_nil_of_length_eq_zero (by omega)
    rw [this, tokenize_nil]
    simp
  | succ n ih =>
    intro l h
    by_cases he : (scan env false l).token = .eof
    · rw [tokenize_eof env he]
      simp
    · rw [tokenize_scan env he]
      have hl : l ≠ [] := by
        rintro rfl
        exact he (scan_nil env)
      have h1 := scan_rest_lt env hl
      have h2 := ih _ (show (scan env false l).rest.length ≤ n by omega)
      simp only [List.length_cons]
      omega

theorem console_ends {env : ParseEnv} {L : List Nat} {l : List Token}
    (hn : ∀ m, m <:+ l → ¬ NullSetting m) (hy : Token.reserved (-16) ∉ l) :
    ∀ (n : Nat) (q : Parser) (s : Place), Follows env L q s → s.tokens env <:+ l →
      Clean (s.tokens env) → (s.tokens env).length < n →
      (q.console env n).2 = some .ended ∧
      (q.console env n).1.length ≤ (s.tokens env).length := by
  intro n
  induction n with
  | zero => intro q s _ _ _ h; omega
  | succ n ih =>
    intro q s hf hl hc hlt
    have hst := (statement_suffix env s).trans hl
    have hns : ¬ NullSetting (s.statement env) := hn _ hst
    have hcp : ¬ s.isCopy env := by
      intro h
      apply hy
      unfold Place.isCopy at h
      exact hst.subset (List.mem_of_mem_head? h)
    have h := parse_ok (env := env) (failed := s.failed) hc hns
    obtain ⟨q', s', e1, e2, e3, e4⟩ := hf.plain
      (by rcases h with ⟨⟨t, h⟩ | h, -⟩ | ⟨h, -⟩ <;> rw [h] <;> trivial)
      (by rcases h with ⟨-, h, -⟩ | ⟨-, h⟩ <;> exact h) hcp
    unfold Parser.console
    rw [e1]
    generalize Maho.parse env s.failed (s.tokens env) = x at h e3 e4
    obtain ⟨p, f, rest⟩ := x
    simp only at h e3 e4
    subst e4
    rcases h with ⟨⟨t, rfl⟩ | rfl, h2, h3⟩ | ⟨rfl, h2⟩
    · obtain ⟨e1, e2⟩ := ih q' s' e2 (h2.trans hl) (hc.suffix h2) (by omega)
      exact ⟨e1, by simp only [List.length_cons]; omega⟩
    · obtain ⟨e1, e2⟩ := ih q' s' e2 (h2.trans hl) (hc.suffix h2) (by omega)
      exact ⟨e1, by simp only [List.length_cons]; omega⟩
    · simp

theorem nextLine_length (l : List Nat) : (nextLine l).length ≤ l.length := by
  unfold nextLine
  have := (List.dropWhile_suffix (l := l) fun x => decide (x ≠ 10)).length_le
  rw [List.length_drop]
  omega

/-- A call of `Parse` returns, and takes a rune unless it is at the end. -/
theorem Place.parse_ok {env : ParseEnv} (L : List Nat) {s : Place} (h : s.Plain env) :
    (∃ o line, (s.parse env L).1 = .parsed (.stmt o) line ∧ (s.parse env L).2.rest.length < s.rest.length) ∨
    (∃ line, (s.parse env L).1 = .parsed .error line ∧ (s.parse env L).2.rest.length < s.rest.length) ∨
    ∃ line, (s.parse env L).1 = .parsed .eof line := by
  have hc : Clean (s.tokens env) := ⟨h.clean, eof_not_mem_tokenize _ _⟩
  have hok := Maho.parse_ok (env := env) (failed := s.failed) hc h.setting
  have hlt : 0 < s.taken env → (s.parse env L).2.rest.length < s.rest.length := by
    intro ht
    have h0 : s.rest ≠ [] := by
      intro h0
      unfold Place.taken Place.tokens at ht
      rw [h0, tokenize_nil] at ht
      simp at ht
    have h1 : (restAfter env.toScanEnv false s.rest (s.taken env)).length < s.rest.length := by
      obtain ⟨k, hk⟩ : ∃ k, s.taken env = 1 + k := ⟨s.taken env - 1, by omega⟩
      have e := restAfter_add env.toScanEnv s.rest 1 k
      rw [hk, e]
      have h2 := (restAfter_suffix env.toScanEnv (restAfter env.toScanEnv false s.rest 1) k).length_le
      have h3 := scan_rest_lt env.toScanEnv h0
      have h4 : restAfter env.toScanEnv false s.rest 1 = (scan env.toScanEnv false s.rest).rest := rfl
      rw [h4] at h2 ⊢
      omega
    unfold Place.parse
    split
    · have := nextLine_length (restAfter env.toScanEnv false s.rest (s.taken env))
      show (nextLine _).length < _
      omega
    · exact h1
  have he : ∃ line, (s.parse env L).1 = .parsed (Maho.parse env s.failed (s.tokens env)).1 line := by
    unfold Place.parse
    split
    · exact ⟨_, rfl⟩
    · exact ⟨_, rfl⟩
  obtain ⟨line, he⟩ := he
  rcases hok with ⟨h1, -, h3⟩ | ⟨h1, -⟩
  · have := hlt (by unfold Place.taken; omega)
    rcases h1 with ⟨o, h1⟩ | h1
    · exact .inl ⟨o, line, by rw [he, h1], this⟩
    · exact .inr (.inl ⟨line, by rw [he, h1], this⟩)
  · exact .inr (.inr ⟨line, by rw [he, h1]⟩)

/-- The console writes what the calls of `Parse` should return. -/
theorem console_copy {env : ParseEnv} {L : List Nat} : ∀ (n : Nat) (q : Parser) (s : Place),
    Follows env L q s → s.Fine env L (List.replicate n .parse) → s.rest.length < n →
    q.console env n = (linesOf env (s.run env L (List.replicate n .parse)), some .ended) ∧
      (linesOf env (s.run env L (List.replicate n .parse))).length ≤ s.rest.length := by
  intro n
  induction n with
  | zero => intro q s _ _ h; omega
  | succ n ih =>
    intro q s hf hfine hlt
    rw [List.replicate_succ] at hfine ⊢
    obtain ⟨e1, e2⟩ := hf.parse hfine.1
    have hok := Place.parse_ok L hfine.1
    unfold Parser.console
    generalize hq : q.parse env = x at e1 e2
    obtain ⟨a, b, q'⟩ := x
    dsimp only at e1 e2
    unfold Place.run
    rcases hok with ⟨o, line, h1, h2⟩ | ⟨line, h1, h2⟩ | ⟨line, h1⟩
    · obtain ⟨k1, k2⟩ := ih q' _ e2 hfine.2 (by omega)
      rw [h1] at e1 ⊢
      cases e1
      simp only [linesOf, k1, List.length_cons, true_and]
      omega
    · obtain ⟨k1, k2⟩ := ih q' _ e2 hfine.2 (by omega)
      rw [h1] at e1 ⊢
      cases e1
      simp only [linesOf, k1, List.length_cons, true_and]
      omega
    · rw [h1] at e1 ⊢
      cases e1
      simp [linesOf]

/-- A script evaluates the statements that the calls of `Parse` should return. -/
theorem script_copy {env : SqlEnv} {penv : ParseEnv} {L : List Nat} (i : Nat) :
    ∀ (n : Nat) (q : Parser) (s : Place) (v : Server),
    Follows penv L q s → s.Fine penv L (List.replicate n .parse) → s.rest.length < n →
    q.script env penv i n v =
      ((v.run env ((stmtsOf (s.run penv L (List.replicate n .parse))).map fun t => (i, t))).1,
        some .ended,
        (v.run env ((stmtsOf (s.run penv L (List.replicate n .parse))).map fun t => (i, t))).2) := by
  intro n
  induction n with
  | zero => intro q s v _ _ h; omega
  | succ n ih =>
    intro q s v hf hfine hlt
    rw [List.replicate_succ] at hfine ⊢
    obtain ⟨e1, e2⟩ := hf.parse hfine.1
    have hok := Place.parse_ok L hfine.1
    unfold Parser.script
    generalize hq : q.parse penv = x at e1 e2
    obtain ⟨a, b, q'⟩ := x
    dsimp only at e1 e2
    unfold Place.run
    rcases hok with ⟨o, line, h1, h2⟩ | ⟨line, h1, h2⟩ | ⟨line, h1⟩
    · have k1 := fun v => ih q' _ v e2 hfine.2 (by omega)
      rw [h1] at e1 ⊢
      cases e1
      simp only [stmtsOf, k1, List.map_cons, Server.run]
    · have k1 := fun v => ih q' _ v e2 hfine.2 (by omega)
      rw [h1] at e1 ⊢
      cases e1
      simp only [stmtsOf, k1]
    · rw [h1] at e1 ⊢
      cases e1
      simp only [stmtsOf]
      rfl

/-! ### Tests for the conditions -/

/-- A test for `NullSetting`. -/
def nullTest (ts : List Token) : Bool :=
  decide (ts.take 2 = [.reserved (-70), .reserved (-47)]) ||
    (decide (ts.head? = some (.reserved (-60))) && decide (ts[3]? = some (.reserved (-47))))

/-- A test for `Place.Plain`. -/
def Place.plainTest (env : ParseEnv) (s : Place) : Bool :=
  decide (Token.error true ∉ s.tokens env) && !nullTest (s.statement env) &&
    (!decide (s.isCopy env) ||
      (match (Maho.parse env s.failed (s.tokens env)).1 with
        | .stmt _ => true
        | _ => false) &&
      decide (tokenAt env.toScanEnv false s.rest (s.taken env - 1) = .endOfStatement) &&
      (match tokenAt env.toScanEnv false s.rest (s.taken env - 2) with
        | .string _ => decide ((restAfter env.toScanEnv false s.rest (s.taken env - 1)).head? = some 59)
        | _ => true))

theorem Place.plain_of {env : ParseEnv} {s : Place} (h : Place.plainTest env s = true) :
    s.Plain env := by
  unfold Place.plainTest at h
  simp only [Bool.and_eq_true, Bool.or_eq_true, Bool.not_eq_true', decide_eq_true_eq,
    decide_eq_false_iff_not] at h
  obtain ⟨⟨h1, h2⟩, h3⟩ := h
  refine ⟨h1, ?_, fun hc => ?_, fun hc => ?_, fun hc b hb => ?_⟩
  · rintro (⟨rest, e⟩ | ⟨v, t, rest, e⟩)
    · rw [e] at h2
      simp [nullTest] at h2
    · rw [e] at h2
      simp [nullTest] at h2
  all_goals
    rcases h3 with h3 | ⟨⟨k1, k2⟩, k4⟩
    · exact absurd hc h3
  · generalize (Maho.parse env s.failed (s.tokens env)).1 = x at k1
    cases x with
    | stmt t => exact ⟨t, rfl⟩
    | _ => cases k1
  · exact k2
  · rw [hb] at k4
    simpa using k4

/-- A test for `Place.Fine` for calls of `Parse`. -/
def Place.fineTest (env : ParseEnv) (L : List Nat) : Nat → Place → Bool
  | 0, _ => true
  | n + 1, s => Place.plainTest env s && Place.fineTest env L n (s.parse env L).2

theorem Place.fine_of {env : ParseEnv} {L : List Nat} : ∀ (n : Nat) (s : Place),
    Place.fineTest env L n s = true → s.Fine env L (List.replicate n .parse)
  | 0, _, _ => trivial
  | n + 1, s, h => by
    unfold Place.fineTest at h
    rw [Bool.and_eq_true] at h
    exact ⟨Place.plain_of h.1, Place.fine_of n _ h.2⟩

/-! ### Scripts -/

theorem spells_parse {env : ParseEnv} (hw : KnowsWords env.toScanEnv) {s : Stmt} {ts : List Token}
    (h : SpellsStmt env s ts) :
    (∃ b, s.print env = .ok b) ∧ Token.error true ∉ ts ∧ ts ≠ [] ∧
    Maho.parse env false ts = (.stmt (some (parensStmt s)), false, []) ∧
    ∀ rest, Maho.parse env false (ts ++ .endOfStatement :: rest) =
      (.stmt (some (parensStmt s)), false, rest) := by
  obtain ⟨hp, -, b, l, hb, hl, rfl⟩ := h
  obtain ⟨b', ts, e1, ⟨m, e2, _, e4, e3⟩, e5⟩ := printable_ok hw hp
  rw [hb] at e1
  cases e1
  have hlm := encodes_unique hl e2
  subst hlm
  have e6 := e3 [] closes_nil
  rw [List.append_nil, tokenize_nil, List.append_nil] at e6
  obtain ⟨h6, h7⟩ := parse_run (e6 ▸ eof_not_mem_tokenize _ _) e5
  rw [e6]
  refine ⟨⟨b, hb⟩, e4, ?_, h6, h7⟩
  rintro rfl
  simp [Maho.parse] at h6

theorem writeStmt_parens (env : ParseEnv) (s : Stmt) {b : Bytes} (h : s.print env = .ok b) :
    writeStmt env (some (parensStmt s)) = .text b := by
  simp only [writeStmt, C63_same_text, h]

theorem bind_inv {α β : Type} {m : P α} {k : α → P β} {ts rest : List Token} {b : β}
    (h : (m >>= k) ts = .ok b rest) : ∃ a us, m ts = .ok a us ∧ k a us = .ok b rest := by
  have h : P.bind m k ts = .ok b rest := h
  unfold P.bind at h
  split at h
  · exact ⟨_, _, ‹_›, h⟩
  all_goals cases h

theorem parseCopy_copy {ts rest : List Token} {s : Stmt} (h : parseCopy ts = .ok s rest) :
    ¬ NotCopy s := by
  unfold parseCopy at h
  obtain ⟨_, _, _, h⟩ := bind_inv h
  obtain ⟨_, _, _, h⟩ := bind_inv h
  obtain ⟨_, _, _, h⟩ := bind_inv h
  obtain ⟨_, _, _, h⟩ := bind_inv h
  split at h
  · cases h
  · obtain ⟨_, _, _, h⟩ := bind_inv h
    cases h
    exact id

/-- `Parse` returns COPY, or no statement, if the first keyword is COPY. -/
theorem parse_copy {env : ParseEnv} {ts rest : List Token} {s : Stmt} {f : Bool}
    (h : ts.head? = some (.reserved (-16)))
    (hp : Maho.parse env false ts = (.stmt (some s), f, rest)) : ¬ NotCopy s := by
  cases ts with
  | nil => cases h
  | cons t us =>
    cases h
    have hp : parseRecover env (.reserved (-16) :: us) = (.stmt (some s), f, rest) := hp
    unfold parseRecover at hp
    split at hp <;> cases hp
    rename_i h
    unfold parseStmtEnd Parsers.stmtEnd at h
    obtain ⟨a, vs, h1, h2⟩ := bind_inv h
    obtain ⟨_, _, _, h2⟩ := bind_inv h2
    cases h2
    rw [stmt_hit (by decide)] at h1
    obtain ⟨b, ws, h3, h4⟩ := bind_inv (m := parseCopy) (k := fun b => pure (some b)) h1
    cases h4
    exact parseCopy_copy h3

/-- What the parser does with a text that begins with a printed statement. -/
theorem Follows.printed {env : ParseEnv} {L : List Nat} {q : Parser} {s : Place}
    (h : Follows env L q s) (hf : s.failed = false) {t : Stmt} {rest : List Token} (hy : NotCopy t)
    (hs : rest <:+ s.tokens env)
    (hp : Maho.parse env false (s.tokens env) = (.stmt (some (parensStmt t)), false, rest)) :
    ∃ q' s', q.parse env = (.stmt (some (parensStmt t)), none, q') ∧ Follows env L q' s' ∧
      s'.failed = false ∧ s'.tokens env = rest := by
  have hst : s.statement env = s.tokens env := by
    unfold Place.statement
    rw [hf]
    rfl
  have hp' := hp
  rw [← hf] at hp
  obtain ⟨q', s', e1, e2, e3, e4⟩ := h.plain (by rw [hp]; trivial) (by rw [hp]; exact hs) (by
    intro hcp
    unfold Place.isCopy at hcp
    rw [hst] at hcp
    refine parse_copy hcp hp' ?_
    cases t <;> first | exact hy | trivial)
  rw [hp] at e1 e3 e4
  exact ⟨q', s', e1, e2, e3.trans hf, e4⟩

/-- At the end of the text. -/
theorem Follows.ended {env : ParseEnv} {L : List Nat} {q : Parser} {s : Place}
    (h : Follows env L q s) (ht : s.tokens env = []) : ∃ q', q.parse env = (.eof, none, q') := by
  obtain ⟨q', s', e1, -⟩ := h.plain (by rw [ht]; trivial) (by rw [ht]; exact List.suffix_refl _)
    (by
      unfold Place.isCopy Place.statement
      rw [ht]
      split <;> simp [afterSemicolon])
  rw [ht] at e1
  exact ⟨q', e1⟩

/-- The calls of `Parse` for a script. -/
inductive Reads (env : ParseEnv) : List Stmt → Parser → Prop
  | nil (q q' : Parser) : q.parse env = (.eof, none, q') → Reads env [] q
  | cons (s : Stmt) (ss : List Stmt) (q q' : Parser) (b : Bytes) : s.print env = .ok b →
      q.parse env = (.stmt (some (parensStmt s)), none, q') → Reads env ss q' → Reads env (s :: ss) q

theorem script_clean {env : ParseEnv} (hw : KnowsWords env.toScanEnv) {ss : List Stmt}
    {ts : List Token} (h : Script env ss ts) : Token.error true ∉ ts ∧ ss.length ≤ ts.length := by
  induction h with
  | nil => exact ⟨by simp, by simp⟩
  | last s ts hs =>
    obtain ⟨_, h2, h3, _⟩ := spells_parse hw hs
    exact ⟨h2, List.length_pos_iff.2 h3⟩
  | cons s ts ss rest hs _ ih =>
    obtain ⟨_, h2, _⟩ := spells_parse hw hs
    refine ⟨by simp [h2, ih.1], ?_⟩
    simp only [List.length_append, List.length_cons]
    omega

theorem script_reads {env : ParseEnv} (hw : KnowsWords env.toScanEnv) {ss : List Stmt}
    {ts : List Token} (h : Script env ss ts) : ∀ {L : List Nat} {q : Parser} {s : Place},
    Follows env L q s → s.failed = false → s.tokens env = ts → Reads env ss q := by
  induction h with
  | nil =>
    intro L q s hf _ ht
    obtain ⟨q', e⟩ := hf.ended ht
    exact .nil _ _ e
  | last t ts hs =>
    intro L q s hf hff ht
    obtain ⟨⟨b, hb⟩, h2, _, h1, _⟩ := spells_parse hw hs
    rw [← ht] at h1 h2
    obtain ⟨q', s', e1, e2, e3, e4⟩ := hf.printed hff hs.2.1
      (List.nil_suffix) h1
    obtain ⟨q2, e⟩ := e2.ended e4
    exact .cons _ _ _ _ b hb e1 (.nil _ _ e)
  | cons t ts ss rest hs h ih =>
    intro L q s hf hff ht
    obtain ⟨⟨b, hb⟩, h2, _, _, h1⟩ := spells_parse hw hs
    have h1 := h1 rest
    have h2 : Token.error true ∉ ts ++ .endOfStatement :: rest := by
      simp [h2, (script_clean hw h).1]
    have hsuf : rest <:+ ts ++ .endOfStatement :: rest := ⟨ts ++ [.endOfStatement], by simp⟩
    rw [← ht] at h1 h2 hsuf
    obtain ⟨q', s', e1, e2, e3, e4⟩ := hf.printed hff hs.2.1 hsuf h1
    exact .cons _ _ _ _ b hb e1 (ih e2 e3 e4)

theorem reads_console {env : ParseEnv} {ss : List Stmt} {q : Parser} (h : Reads env ss q) :
    ∀ n, ss.length < n → ∃ bs : List Bytes, ss.map (·.print env) = bs.map .ok ∧
      q.console env n = (bs.map .text, some .ended) := by
  induction h with
  | nil q q' h =>
    intro n hn
    obtain ⟨n, rfl⟩ : ∃ k, n = k + 1 := ⟨n - 1, by simp at hn; omega⟩
    exact ⟨[], rfl, by simp only [Parser.console, h, List.map_nil]⟩
  | cons s ss q q' b hb h _ ih =>
    intro n hn
    obtain ⟨n, rfl⟩ : ∃ k, n = k + 1 := ⟨n - 1, by omega⟩
    obtain ⟨bs, h1, h2⟩ := ih n (by simp only [List.length_cons] at hn; omega)
    refine ⟨b :: bs, by simp only [List.map_cons, hb, h1], ?_⟩
    simp only [Parser.console, h, h2, writeStmt_parens env s hb, List.map_cons]

/-! ### Evaluation -/

theorem primaryColumnKey_map (f : Expr → Expr) (columns : List Identifier) (cs : List Constraint) :
    primaryColumnKey columns (cs.map fun c => { c with check := c.check.map f }) =
      primaryColumnKey columns cs := by
  induction cs with
  | nil => rfl
  | cons c cs ih => simp only [List.map_cons, primaryColumnKey, ih]

/-- The evaluator does not look at expressions. -/
theorem evaluate_parens (env : SqlEnv) (t : Tree) (stmt : Stmt) :
    Maho.evaluate env t (parensStmt stmt) = Maho.evaluate env t stmt := by
  cases stmt <;> try rfl
  case createTable c =>
    simp only [parensStmt, changeStmt, Maho.evaluate, evaluateCreateTable, primaryColumnKey_map]

theorem resolve_parens (r : Resolver) (stmt : Stmt) :
    (parensStmt stmt).resolve r = parensStmt (stmt.resolve r) := by
  cases stmt <;> rfl

theorem step_parens (env : SqlEnv) (s : Server) (i : Nat) (stmt : Stmt) :
    s.step env i (some (parensStmt stmt)) = s.step env i (some stmt) := by
  have : ∀ ses : Session, ses.evaluate env s.engine (some (parensStmt stmt)) =
      ses.evaluate env s.engine (some stmt) := by
    intro ses
    have he := fun t => evaluate_parens env t (stmt.resolve ses.resolver)
    simp only [Session.evaluate, resolve_parens]
    revert he
    generalize stmt.resolve ses.resolver = x
    intro he
    have hf : (fun t => Maho.evaluate env t (parensStmt x)) = fun t => Maho.evaluate env t x :=
      funext he
    have ha : autocommit env s.engine (parensStmt x) = autocommit env s.engine x := by
      unfold autocommit
      rw [hf]
    cases x <;> simp only [parensStmt, changeStmt] at hf ha ⊢ <;> simp only [hf, ha]
  unfold Server.step
  simp only [this]

theorem reads_script {env : SqlEnv} {penv : ParseEnv} {ss : List Stmt} {q : Parser}
    (h : Reads penv ss q) (i : Nat) : ∀ n (s : Server), ss.length < n →
    q.script env penv i n s =
      ((s.run env (ss.map fun t => (i, some t))).1, some .ended,
        (s.run env (ss.map fun t => (i, some t))).2) := by
  induction h with
  | nil q q' h =>
    intro n s hn
    obtain ⟨n, rfl⟩ : ∃ k, n = k + 1 := ⟨n - 1, by simp at hn; omega⟩
    simp only [Parser.script, h]
    rfl
  | cons t ss q q' b hb h _ ih =>
    intro n s hn
    obtain ⟨n, rfl⟩ : ∃ k, n = k + 1 := ⟨n - 1, by omega⟩
    simp only [Parser.script, h, step_parens, List.map_cons, Server.run]
    rw [ih n _ (by simp only [List.length_cons] at hn; omega)]

theorem Reads.of_script {env : ParseEnv} (hw : KnowsWords env.toScanEnv) {ss : List Stmt}
    {l : List Nat} (h : Script env ss (tokenize env.toScanEnv l)) :
    Reads env ss (Parser.new env l) ∧ ss.length < l.length + 1 :=
  ⟨script_reads hw h (Follows.new env l) rfl rfl, by
    have h1 := (script_clean hw h).2
    have h2 := tokenize_length env.toScanEnv _ l (Nat.le_refl _)
    omega⟩

end Maho
