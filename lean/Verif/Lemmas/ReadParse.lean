import Verif.Model.ReadParse
import Verif.Lemmas.ReadScan
import Verif.Lemmas.ParseInput
import Verif.Lemmas.RingStmt
import Verif.Spec.Copy
/-
Helper lemmas for C67: the parser and the input that COPY takes away from the scanner.
-/
namespace Maho
open Maho.Spec

/-! ### Tokens -/

theorem restAfter_add (env : ScanEnv) (l : List Nat) (j : Nat) : ∀ k,
    restAfter env false l (j + k) = restAfter env false (restAfter env false l j) k
  | 0 => rfl
  | k + 1 => by
    show (scan env false (restAfter env false l (j + k))).rest = _
    rw [restAfter_add env l j k]
    rfl

theorem scan_eof (env : ScanEnv) {l : List Nat} (h : (scan env false l).token = .eof) :
    (scan env false l).rest = [] := by
  rw [Scanner.scan_eq_from] at h ⊢
  revert h
  cases skip .space l with
  | none => intro _; rfl
  | some p =>
    obtain ⟨r, l⟩ := p
    dsimp only
    split
    · intro h; cases h
    · intro h
      exact absurd h (Scanner.from_ne env r l).2

theorem tokenize_eof (env : ScanEnv) {l : List Nat} (h : (scan env false l).token = .eof) :
    tokenize env l = [] := by
  unfold tokenize tokenizeFuel
  simp [h]

theorem tokenize_tail (env : ScanEnv) (l : List Nat) :
    (tokenize env l).tail = tokenize env (scan env false l).rest := by
  by_cases h : (scan env false l).token = .eof
  · rw [scan_eof env h, tokenize_eof env h, tokenize_nil]
    rfl
  · rw [tokenize_scan env h]
    rfl

theorem tokenize_drop (env : ScanEnv) (l : List Nat) : ∀ k,
    (tokenize env l).drop k = tokenize env (restAfter env false l k)
  | 0 => rfl
  | k + 1 => by
    rw [← List.drop_drop, tokenize_drop env l k, List.drop_one, tokenize_tail]
    rfl

theorem stream_tokenize (env : ScanEnv) (l : List Nat) (k : Nat) :
    RP.stream (tokenize env l) k = tokenAt env false l k := by
  have h := tokenize_drop env l k
  have e : RP.stream (tokenize env l) k = ((tokenize env l).drop k).head?.getD .eof := by
    simp [RP.stream, List.head?_drop, List.getD_eq_getElem?_getD]
  rw [e, h]
  unfold tokenAt
  by_cases h : (scan env false (restAfter env false l k)).token = .eof
  · rw [tokenize_eof env h, h]
    rfl
  · rw [tokenize_scan env h]
    rfl

theorem eof_not_mem_tokenize (env : ScanEnv) (l : List Nat) : Token.eof ∉ tokenize env l :=
  fun h => (tokenize_mem h).1 rfl

namespace Scanner
section
variable {L : Option (List Nat)}

theorem tokens_fuel (env : ScanEnv) : ∀ (n : Nat) {s : Scanner} {l : List Nat},
    Tracks false L s l → s.tokens env n = tokenizeFuel env n l
  | 0, _, _, _ => rfl
  | n + 1, s, l, h => by
    obtain ⟨e1, -, e2, -⟩ := agrees_scan env ⟨0, 0⟩ h
    unfold Scanner.tokens tokenizeFuel
    dsimp only
    rw [e1, tokens_fuel env n e2]

theorem tokens_eq (env : ScanEnv) {s : Scanner} {l : List Nat} (h : Tracks false L s l) :
    s.tokens env s.fuel = tokenize env l := by
  rw [tokens_fuel env _ h]
  exact tokenizeFuel_eq env _ _ l h.fuel (Nat.lt_succ_self _)

theorem Tracks.after (env : ScanEnv) (ps : Nat → Position) {s : Scanner} {l : List Nat}
    (h : Tracks false L s l) : ∀ k, Tracks false L (after env false ps s k) (restAfter env false l k)
  | 0 => h
  | k + 1 => (agrees_scan env (ps k) (h.after env ps k)).2.2.1

theorem after_add (env : ScanEnv) (pos : Position) (s : Scanner) (j : Nat) : ∀ k,
    after env false (fun _ => pos) s (j + k) =
      after env false (fun _ => pos) (after env false (fun _ => pos) s j) k
  | 0 => rfl
  | k + 1 => by
    show (scan env false pos (after env false (fun _ => pos) s (j + k))).2.2 = _
    rw [after_add env pos s j k]
    rfl

/-- A scanner that is to read a `;` again. -/
theorem scan_semicolon (env : ScanEnv) (pos : Position) {s : Scanner} (hu : s.unread = true)
    (hr : s.read = 59) :
    scan env false pos s = (.endOfStatement, pos, { s with buf := [], unread := false }) := by
  unfold scan
  have : skip false ({ s with buf := [] } : Scanner).fuel .space { s with buf := [] } =
      (59, { s with buf := [], unread := false }) := by
    unfold fuel skip readRune
    simp [hu, hr]
    intro h
    exact absurd h (by decide)
  dsimp only
  rw [this]
  rfl

end

/-! ### The rest of the line -/

variable {L : List Nat}

/-- What follows the line. -/
theorem skipLine_eq : ∀ (l : List Nat) (s : Scanner), skipLine l s =
    { s with
      runes := nextLine l
      line := if 10 ∈ l then s.line + 1 else s.line
      column := if 10 ∈ l then 0 else s.column }
  | [], s => by simp [skipLine, nextLine]
  | r :: l, s => by
    unfold skipLine
    have e10 : '\n'.toNat = 10 := rfl
    by_cases h : r = 10
    · simp [h, nextLine]
    · rw [if_neg (by rw [e10]; exact h), skipLine_eq l s]
      have h' : ¬ 10 = r := fun e => h e.symm
      simp [h, h', nextLine]

theorem nextLine_split : ∀ {l : List Nat}, 10 ∈ l → ∃ line, 10 ∉ line ∧ l = line ++ 10 :: nextLine l
  | [], h => by cases h
  | r :: l, h => by
    by_cases hr : r = 10
    · exact ⟨[], by simp, by simp [hr, nextLine]⟩
    · have h' : 10 ∈ l := by
        rcases List.mem_cons.mp h with h | h
        · exact absurd h.symm hr
        · exact h
      obtain ⟨line, h1, h2⟩ := nextLine_split h'
      refine ⟨r :: line, ?_, ?_⟩
      · intro h
        rcases List.mem_cons.mp h with h | h
        · exact hr h.symm
        · exact h1 h
      · have : nextLine (r :: l) = nextLine l := by simp [nextLine, hr]
        rw [this, List.cons_append, ← h2]

theorem nextLine_none : ∀ {l : List Nat}, 10 ∉ l → nextLine l = []
  | [], _ => rfl
  | r :: l, h => by
    have hr : r ≠ 10 := fun e => h (by simp [e])
    have : nextLine (r :: l) = nextLine l := by simp [nextLine, hr]
    rw [this]
    exact nextLine_none fun h' => h (List.mem_cons_of_mem _ h')

/-- The line that `RuneReader` returns, and where the scanner then stands. -/
theorem runeReader_place {s : Scanner} {l : List Nat} (h : Tracks false L s l) :
    ∃ d, L = d ++ nextLine s.runes ∧ s.runeReader.line = lineOf d ∧
      (10 ∈ s.runes → s.runeReader.column = columnOf d) := by
  obtain ⟨d, h1, h2, h3, -⟩ := h.place _ rfl
  unfold runeReader
  rw [skipLine_eq]
  by_cases hn : 10 ∈ s.runes
  · obtain ⟨line, e1, e2⟩ := nextLine_split hn
    refine ⟨d ++ line ++ [10], ?_, ?_, fun _ => ?_⟩
    · rw [h1]
      conv => lhs; rw [e2]
      simp
    · dsimp only
      rw [if_pos hn, lineOf_append, if_pos rfl, h2]
      unfold lineOf
      rw [List.count_append, List.count_eq_zero.mpr e1]
      omega
    · dsimp only
      rw [if_pos hn, columnOf_append, if_pos rfl]
  · refine ⟨d ++ s.runes, ?_, ?_, fun h => absurd h hn⟩
    · rw [nextLine_none hn, h1]
      simp
    · dsimp only
      rw [if_neg hn, h2]
      unfold lineOf
      rw [List.count_append, List.count_eq_zero.mpr hn]
      omega

/-- Moving to the next line. In a last line that does not end the column stays as it was. -/
theorem runeReader_tracks {s : Scanner} {l : List Nat} (h : Tracks false L s l) (b : Bytes) :
    ∃ L1, (nextLine s.runes = [] ∨ L1 = L) ∧
      Tracks false L1 { s.runeReader with unread := false, buf := b } (nextLine s.runes) := by
  have e : s.runeReader.runes = nextLine s.runes := by
    unfold runeReader
    rw [skipLine_eq]
  by_cases hn : 10 ∈ s.runes
  · obtain ⟨d, h1, h2, h3⟩ := runeReader_place h
    refine ⟨L, .inr rfl, ?_, (fun h => by cases h), fun T eT => ⟨d, ?_, h2, h3 hn, (fun h => by cases h)⟩⟩
    · simp [Scanner.rest, e]
    · dsimp only
      rw [e, ← Option.some.inj eT]
      exact h1
  · obtain ⟨d, h1, h2, h3, -⟩ := h.place _ rfl
    refine ⟨d, .inl (nextLine_none hn), ?_, (fun h => by cases h),
      fun T eT => ⟨d, ?_, ?_, ?_, (fun h => by cases h)⟩⟩
    · simp [Scanner.rest, e]
    · dsimp only
      rw [e, nextLine_none hn, List.append_nil, ← Option.some.inj eT]
    · unfold runeReader
      rw [skipLine_eq]
      dsimp only
      rw [if_neg hn, h2]
    · unfold runeReader
      rw [skipLine_eq]
      dsimp only
      rw [if_neg hn, h3]

/-- Reading a rune of the data. -/
theorem readFrom_tracks {s : Scanner} {r : Nat} {l : List Nat} (h : Tracks false L s (r :: l))
    (hr : s.runes = r :: l) : s.readFrom.1 = some r ∧ Tracks false L s.readFrom.2 l ∧
      s.readFrom.2.runes = l := by
  obtain ⟨h1, h2, hpl⟩ := h
  obtain ⟨d, h3, h4, h5, -⟩ := hpl _ rfl
  have hu : s.unread = false := by
    cases hu : s.unread with
    | false => rfl
    | true =>
      rcases h2 hu with ⟨-, e, -⟩ | h0
      · rw [e] at hr; cases hr
      · unfold Scanner.rest at h1
        rw [if_pos ⟨hu, h0⟩, hr] at h1
        have := congrArg List.length h1
        simp at this
  have e : s.readFrom = (some r, { s with
      runes := l
      line := if r = '\n'.toNat then s.line + 1 else s.line
      column := if r = '\n'.toNat then 0 else s.column + 1 }) := by
    unfold readFrom
    rw [hr]
  rw [e]
  refine ⟨rfl, ⟨?_, ?_, fun T eT => ⟨d ++ [r], ?_, ?_, ?_, ?_⟩⟩, rfl⟩
  · simp [Scanner.rest, hu]
  · intro h; simp [hu] at h
  · rw [← Option.some.inj eT, h3, hr]; simp
  · rw [lineOf_append, h4]; rfl
  · rw [columnOf_append, h5]; rfl
  · intro h; simp [hu] at h

end Scanner

/-! ### The ring -/

variable {ts : List Token}

/-- Only the tokens that the scanner has returned matter. -/
theorem At.congr {ts' : List Token} {r : Ring} {p : Nat} (h : At ts r p)
    (he : ∀ i < r.scanned, RP.stream ts' i = RP.stream ts i) : At ts' r p := by
  obtain ⟨⟨h1, h2, h3, h4⟩, h5⟩ := h
  refine ⟨⟨h1, h2, h3, fun i hi hj => ?_⟩, fun i hi hj => ?_⟩
  · rw [he i hi]
    exact h4 i hi hj
  · rw [he i hj]
    exact h5 i hi hj

/-- The end of a statement. -/
theorem end_at {r : Ring} {p : Nat} (h : At ts r p) (hs : RP.stream ts p = .endOfStatement) :
    ∃ r2, RP.expectEndOfStatement ts r = .ok () r2 ∧ At ts r2 (p + 1) ∧
      r2.unscanned = r.unscanned - 1 ∧ r2.scanned = max r.scanned (p + 1) := by
  obtain ⟨e1, e2, e3⟩ := h.holds.scan
  have hu : (r.scan (RP.stream ts)).2.unscanned = r.unscanned - 1 := by
    unfold Ring.scan
    split
    · rfl
    · simp only; omega
  refine ⟨(r.scan (RP.stream ts)).2, ?_,
    ⟨e2, fun i h1 h2 => h.clean i (by omega) (by omega)⟩, hu, e3⟩
  show RP.bind RP.next _ ts r = _
  unfold RP.bind RP.next
  dsimp only
  rw [if_neg (by rw [e1, hs]; simp)]
  dsimp only
  rw [e1, hs]
  rfl

section
variable (hts : Token.eof ∉ ts)
include hts

/-- The keyword of a statement, on a list. -/
def keyword : P (Option Identifier) := do
  let empty ← P.maybeToken .endOfStatement
  if empty then pure none else some <$> P.expectReserved stmtKeywords

theorem sim_keyword : Sim ts (fun _ _ => True) keyword RP.keyword
    (fun o p u => o ≠ none → Std ts p u) := by
  refine Sim.bind ((sim_peekToken hts (Q := fun _ => True) (k := 3) (by omega)
    .endOfStatement).mono (fun p u h _ => ⟨trivial, h⟩) fun _ _ _ _ h => h) fun b => ?_
  refine Sim.ite (fun _ => Sim.pure fun _ _ _ h => absurd rfl h) fun _ => ?_
  refine Sim.bind (Mid := fun _ => Std ts) ?_ fun id => Sim.pure fun _ _ h _ => h
  refine Sim.mono (Pre := fun _ _ => True) ?_ (fun _ _ _ _ => trivial) (fun _ _ _ _ h => h)
  refine Sim.bind (Sim.next (Pre := fun _ _ => True)) fun t => ?_
  have err : Sim ts (fun p u => 0 < p ∧ before ts p = t ∧
      t ≠ .error false ∧ ∃ u0 ≤ 3, True ∧ u = u0 - 1) (P.errorGot t : P Identifier)
      RP.errorGot (fun _ => Std ts) := by
    refine Sim.errorGot ?_
    rintro p u _ ⟨h1, h2, _, u0, h3, _, rfl⟩
    exact ⟨h1, h2, by omega⟩
  cases t <;> try exact err
  refine Sim.ite (fun _ => Sim.pure ?_) fun _ => err
  rintro p u ⟨h1, h2, _, u0, h3, _, rfl⟩
  exact ⟨h1, by rw [h2]; simp, by omega⟩

/-- Where the ring stands after COPY. -/
def AfterCopy (ts : List Token) (p u : Nat) : Prop :=
  0 < p ∧ ((before ts p = .identifier Kw.STDIN ∧ u = 1) ∨ ((∃ b, before ts p = .string [b]) ∧ u = 0))

theorem sim_peekNew {Q : Nat → Prop} (ids : List Identifier) :
    Sim ts (fun p u => Q p ∧ u = 0) (P.optionalReserved ids) (RP.optionalReserved ids)
      (fun b p u => (b = false ∧ Q p ∧ u = 1) ∨
        (b = true ∧ 0 < p ∧ u = 0 ∧ ∃ id, before ts p = .reserved id)) := by
  rw [optionalReserved_eq]
  show Sim ts _ (P.optionalReservedId ids >>= _) _ _
  refine Sim.bind (Mid := fun o p u => (o = none ∧ Q p ∧ u = 1) ∨
    (o.isSome = true ∧ 0 < p ∧ u = 0 ∧ ∃ id, before ts p = .reserved id)) ?_ fun o => Sim.pure ?_
  · refine Sim.bind Sim.next fun t => ?_
    have hb : Sim ts (fun p u => 0 < p ∧ before ts p = t ∧ t ≠ .error false ∧
        ∃ u0 ≤ 3, (Q (p - 1) ∧ u0 = 0) ∧ u = u0 - 1)
        (do P.unscan t; pure none) (do RP.unscan; pure none)
        (fun (o : Option Identifier) p u => (o = none ∧ Q p ∧ u = 1) ∨
          (o.isSome = true ∧ 0 < p ∧ u = 0 ∧ ∃ id, before ts p = .reserved id)) := by
      refine Sim.bind (Mid := fun _ p u => Q p ∧ u = 1) (Sim.unscan hts ?_)
        fun _ => Sim.pure fun p u h => Or.inl ⟨rfl, h⟩
      rintro p u hu ⟨h1, h2, h3, u0, h4, ⟨h5, h6⟩, rfl⟩
      exact ⟨h1, h2, h3, by omega, h5, by omega⟩
    cases t <;> try exact hb
    rename_i id
    refine Sim.ite (fun hi => Sim.pure ?_) (fun _ => hb)
    rintro p u ⟨h1, h2, h3, u0, h4, ⟨h5, h6⟩, rfl⟩
    exact Or.inr ⟨rfl, h1, by omega, id, h2⟩
  · rintro p u (⟨rfl, h⟩ | ⟨h1, h⟩)
    · exact Or.inl ⟨rfl, h⟩
    · exact Or.inr ⟨h1, h⟩

theorem sim_copyPlace : Sim ts (Std ts) parseCopy RP.parseCopy (fun _ => AfterCopy ts) := by
  refine Sim.bind (sim_tableName hts) fun _ => Sim.bind (sim_columns hts) fun _ => ?_
  -- FROM
  refine Sim.bind (Mid := fun _ p u => 0 < p ∧ before ts p ≠ .endOfStatement ∧ u ≤ 1) ?_ fun _ => ?_
  · refine Sim2.next fun t => ?_
    have err : Sim ts (Got ts t) (P.errorGot t : P Identifier) RP.errorGot
        (fun _ p u => 0 < p ∧ before ts p ≠ .endOfStatement ∧ u ≤ 1) :=
      Sim.errorGot fun _ _ _ h => ⟨h.1, h.2.1, by have := h.2.2.2.1; omega⟩
    cases t <;> try exact err
    refine Sim.ite (fun _ => Sim.pure ?_) (fun _ => err)
    rintro p u ⟨h1, h2, -, h3, -⟩
    exact ⟨h1, by rw [h2]; simp, h3⟩
  -- STDIN
  refine Sim.bind (Mid := fun id p u => (0 < p ∧ before ts p = .identifier id) ∧ u = 0) ?_ fun id => ?_
  · refine Sim.bind Sim.next fun t => ?_
    cases t <;> try
      refine Sim.errorGot ?_
      rintro p u _ ⟨h1, h2, h3, u0, h4, ⟨h5, h6, h7⟩, rfl⟩
      exact ⟨h1, h2, by omega⟩
    refine Sim.pure ?_
    rintro p u ⟨h1, h2, h3, u0, h4, ⟨h5, h6, h7⟩, rfl⟩
    exact ⟨⟨h1, h2⟩, by omega⟩
  refine Sim.ite (fun _ => Sim.error ?_) fun hid => ?_
  · rintro p u _ ⟨⟨h1, h2⟩, rfl⟩
    exact ⟨h1, by rw [h2]; simp, by omega⟩
  have hid : id = Kw.STDIN := Decidable.not_not.mp hid
  subst hid
  refine Sim.bind (Mid := fun _ => AfterCopy ts) ?_ fun _ => Sim.pure fun _ _ h => h
  refine Sim.bind (sim_peekNew hts _) fun b => Sim.ite (fun hb => ?_) fun hb => Sim.pure ?_
  · subst hb
    refine Sim.bind (Mid := fun _ => AfterCopy ts) ?_ fun _ => Sim.pure fun _ _ h => h
    refine Sim.bind Sim.next fun t => ?_
    have err : Sim ts (fun p u => 0 < p ∧ before ts p = t ∧ t ≠ .error false ∧ ∃ u0 ≤ 3,
        ((true = false ∧ (0 < p - 1 ∧ before ts (p - 1) = .identifier Kw.STDIN) ∧ u0 = 1) ∨
          (true = true ∧ 0 < p - 1 ∧ u0 = 0 ∧ ∃ id, before ts (p - 1) = .reserved id)) ∧
          u = u0 - 1) (P.errorAt t : P Nat) RP.error (fun _ => AfterCopy ts) := by
      refine Sim.errorAt ?_
      rintro p u hu ⟨h1, h2, h3, u0, h4, ⟨h5, -⟩ | ⟨-, h5, rfl, -⟩, rfl⟩
      · cases h5
      · exact ⟨h1, h2, by omega⟩
    cases t <;> try exact err
    rename_i s
    rcases s with _ | ⟨b, _ | ⟨c, l⟩⟩
    · exact err
    · refine Sim.pure ?_
      rintro p u ⟨h1, h2, h3, u0, h4, ⟨h5, -⟩ | ⟨-, h5, rfl, -⟩, rfl⟩
      · cases h5
      · exact ⟨h1, .inr ⟨⟨b, h2⟩, rfl⟩⟩
    · exact err
  · rintro p u (⟨-, ⟨h1, h2⟩, rfl⟩ | ⟨h, -⟩)
    · exact ⟨h1, .inl ⟨h2, rfl⟩⟩
    · exact absurd h hb

end
/-! ### The parts of a call -/

/-- The keyword is COPY only if the first token is. -/
theorem keyword_copy {l rest : List Token} (he : Token.eof ∉ l)
    (h : keyword l = .ok (some Kw.COPY) rest) : l = .reserved Kw.COPY :: rest := by
  cases l with
  | nil => cases h
  | cons t l =>
    cases t with
    | eof => exact absurd List.mem_cons_self he
    | error b => cases b <;> cases h
    | reserved id =>
      have e : keyword (.reserved id :: l) = (if id ∈ stmtKeywords then .ok (some id) l else
          .fail false l) := by
        show P.bind (P.expectReserved stmtKeywords) _ (.reserved id :: l) = _
        by_cases hi : id ∈ stmtKeywords
        · rw [if_pos hi]
          have : P.expectReserved stmtKeywords (.reserved id :: l) = .ok id l := by
            show (if id ∈ stmtKeywords then pure id else P.errorGot (.reserved id) : P Identifier) l = _
            rw [if_pos hi]
            rfl
          unfold P.bind
          rw [this]
          rfl
        · rw [if_neg hi]
          have : P.expectReserved stmtKeywords (.reserved id :: l) = .fail false l := by
            show (if id ∈ stmtKeywords then pure id else P.errorGot (.reserved id) : P Identifier) l = _
            rw [if_neg hi]
            rfl
          unfold P.bind
          rw [this]
      rw [e] at h
      split at h
      · cases h
        rfl
      · cases h
    | _ => cases h

theorem keyword_eq (tl : List Token) : keyword (.reserved Kw.COPY :: tl) = .ok (some Kw.COPY) tl := rfl

/-- A COPY statement, on a list. -/
theorem recover_copy {env : ParseEnv} {tl : List Token} {s : Option Stmt}
    (h : (parseRecover env (.reserved Kw.COPY :: tl)).1 = .stmt s) :
    ∃ t rest left, s = some t ∧ parseCopy tl = .ok t rest ∧
      P.expectEndOfStatement rest = .ok () left ∧
      parseRecover env (.reserved Kw.COPY :: tl) = (.stmt s, false, left) := by
  have e : parseStmtEnd env (.reserved Kw.COPY :: tl) =
      P.bind (some <$> parseCopy) (fun s => P.bind P.expectEndOfStatement fun _ => pure s) tl := rfl
  unfold parseRecover at h ⊢
  rw [e] at h ⊢
  have e2 : (some <$> parseCopy : P (Option Stmt)) tl = P.bind parseCopy (fun a => pure (some a)) tl := rfl
  unfold P.bind at h ⊢
  rw [e2] at h ⊢
  unfold P.bind at h ⊢
  revert h
  cases hc : parseCopy tl with
  | ok t rest =>
    dsimp only [pure]
    cases he : P.expectEndOfStatement rest with
    | ok a left =>
      intro h
      cases h
      exact ⟨t, rest, left, rfl, rfl, he, rfl⟩
    | _ => intro h; cases h
  | _ => intro h; cases h

/-- The end of a statement, on a list. -/
theorem expectEnd_list {l left : List Token} (h : P.expectEndOfStatement l = .ok () left) :
    left = l.drop 1 := by
  cases l with
  | nil => cases h; rfl
  | cons t l =>
    cases t with
    | error b => cases b <;> cases h
    | eof => cases h; rfl
    | endOfStatement => cases h; rfl
    | _ => cases h

/-- `parseStmt` in two parts. -/
theorem stmt_eq (env : ParseEnv) (q : RP.Parsers) (ts : List Token) (r : Ring) :
    q.stmt env ts r = (match RP.keyword ts r with
      | .ok none r2 => .ok none r2
      | .ok (some id) r2 => q.afterKeyword env id ts r2
      | .fail ended r2 => .fail ended r2
      | .panic => .panic
      | .stuck => .stuck) := by
  unfold RP.Parsers.stmt RP.keyword
  simp only [bind, RP.bind]
  cases RP.maybeToken .endOfStatement ts r with
  | ok b r2 =>
    cases b with
    | true => rfl
    | false =>
      have e : (some <$> RP.expectReserved stmtKeywords : RP (Option Identifier)) ts r2 =
        RP.bind (RP.expectReserved stmtKeywords) (fun a => pure (some a)) ts r2 := rfl
      simp only [Bool.false_eq_true, if_false]
      rw [e]
      unfold RP.bind
      cases RP.expectReserved stmtKeywords ts r2 <;> rfl
  | _ => rfl

section
variable (hts : Token.eof ∉ ts)
include hts

/-- A statement that is not COPY. -/
theorem recover_other (env : ParseEnv) {i : Input} (hi : i.tokens = ts) {r : Ring} {p : Nat}
    (ha : At ts r p) (hc : (ts.drop p).head? ≠ some (.reserved Kw.COPY)) :
    (Parser.recover env i r).1 = (RP.parseRecover env ts r).1 ∧ (Parser.recover env i r).2.1 = none ∧
      ((RP.parseRecover env ts r).1.returns → (Parser.recover env i r).2.2 =
        ⟨(RP.parseRecover env ts r).2.1, (RP.parseRecover env ts r).2.2, i⟩) := by
  subst hi
  have hk := sim_keyword hts r p ha trivial
  have key : i.stmt env r = ((RP.parsers env (RP.left i.tokens r + 1)).stmt env i.tokens r, i, none) := by
    unfold Input.stmt
    rw [stmt_eq]
    cases hr : RP.keyword i.tokens r with
    | ok o r2 =>
      cases o with
      | none => rfl
      | some id =>
        have : id ≠ Kw.COPY := by
          rintro rfl
          rw [hr] at hk
          revert hk
          cases hl : keyword (i.tokens.drop p) with
          | ok o rest =>
            rintro ⟨rfl, -⟩
            have := keyword_copy (fun h => hts (List.mem_of_mem_drop h)) hl
            rw [this] at hc
            exact hc rfl
          | _ => exact fun h => h.elim
        dsimp only
        rw [if_neg this]
    | _ => rfl
  unfold Parser.recover RP.parseRecover RP.parseStmtEnd RP.Parsers.stmtEnd
  rw [key]
  simp only [bind, RP.bind, pure]
  cases (RP.parsers env (RP.left i.tokens r + 1)).stmt env i.tokens r with
  | ok s r2 =>
    dsimp only
    cases RP.expectEndOfStatement i.tokens r2 <;> refine ⟨rfl, rfl, fun h => ?_⟩ <;>
      first | rfl | exact h.elim
  | fail b r2 => exact ⟨rfl, rfl, fun _ => rfl⟩
  | panic => exact ⟨rfl, rfl, fun h => h.elim⟩
  | stuck => exact ⟨rfl, rfl, fun h => h.elim⟩

/-- A call of `Parse` ends before a statement, or gets to one. -/
theorem parse_cases (env : ParseEnv) {q : Parser} (hq : q.input.tokens = ts) {p : Nat}
    (ha : At ts q.ring p) :
    (∃ a b r p2, q.parse env = (a, none, ⟨b, r, q.input⟩) ∧ At ts r p2 ∧
      parse env q.failed (ts.drop p) = (a, b, ts.drop p2) ∧ ∀ t, a ≠ .stmt t) ∨
    (∃ r p2, q.parse env = Parser.recover env q.input r ∧ At ts r p2 ∧
      ts.drop p2 = (if q.failed then afterSemicolon (ts.drop p) else ts.drop p) ∧
      parse env q.failed (ts.drop p) = parseRecover env (ts.drop p2)) := by
  subst hq
  obtain ⟨r2, ha2, hu, hc⟩ := scanRune_at ha
  rcases hc with ⟨hl, e1, e2⟩ | ⟨hl, t, hn, hs, e1, e2⟩ | ⟨e0, e1, e2⟩
  · left
    refine ⟨.error, q.failed, r2, p + 1, ?_, ha2, ?_, fun t h => by cases h⟩
    · unfold Parser.parse
      rw [e2]
    · rw [e1]
      rfl
  · have ht : t ≠ .eof := by
      intro e
      have := (stream_eof hts p).mp (hs.trans e)
      omega
    obtain ⟨r3, e3, ha3⟩ := unscan_at ha2 hu (by rw [hs]; exact hn)
    have key : parse env q.failed (q.input.tokens.drop p) = (if q.failed then
            match skipStatement (q.input.tokens.drop p) with
            | (some true, rest) => (.error, true, rest)
            | (some false, rest) => (.eof, true, rest)
            | (none, rest) => parseRecover env rest
          else parseRecover env (q.input.tokens.drop p)) := by
      unfold parse
      split
      · rename_i h; rw [e1] at h; cases h
      · rename_i h; rw [e1] at h; cases h; exact absurd rfl ht
      · rename_i h; rw [e1] at h; cases h; exact absurd rfl hn
      · rfl
    have key2 : q.parse env =
        (if q.failed then
              match RP.skipStatement q.input.tokens (RP.left q.input.tokens r3 + 1) r3 with
              | (some a, r) => (a, none, ⟨true, r, q.input⟩)
              | (none, r) => Parser.recover env q.input r
            else Parser.recover env q.input r3) := by
      unfold Parser.parse
      rw [e2]
      cases t <;> first | exact absurd rfl ht | (simp only [e3]; rfl)
    rw [key, key2]
    cases hf : q.failed with
    | false => exact .inr ⟨r3, p, rfl, ha3, rfl, rfl⟩
    | true =>
      obtain ⟨p2, h1, h2, h3⟩ := same_skip hts (RP.left q.input.tokens r3 + 1) ha3
        (by rw [left_eq ha3]; omega)
      have hsk := skipStatement_spec _ fun h => hts (List.mem_of_mem_drop (i := p) h)
      simp only [if_true]
      revert h1 h2 h3 hsk
      generalize RP.skipStatement q.input.tokens (RP.left q.input.tokens r3 + 1) r3 = a
      generalize skipStatement (q.input.tokens.drop p) = b
      obtain ⟨a1, a2⟩ := a
      obtain ⟨b1, b2⟩ := b
      intro h1 h2 h3 hsk
      dsimp only at h1 h2 h3
      subst h2 h3
      rcases b1 with _ | _ | _
      · rcases hsk with ⟨b, rest, e, -⟩ | ⟨e, -⟩
        · cases e
        · simp only [Prod.mk.injEq, true_and] at e
          exact .inr ⟨a2, p2, rfl, h1, e, rfl⟩
      · exact .inl ⟨_, _, _, p2, rfl, h1, rfl, fun t h => by cases h⟩
      · exact .inl ⟨_, _, _, p2, rfl, h1, rfl, fun t h => by cases h⟩
  · left
    refine ⟨.eof, q.failed, r2, p + 1, ?_, ha2, ?_, fun t h => by cases h⟩
    · unfold Parser.parse
      rw [e2]
    · rw [e0, e1]
      rfl

end
end Maho
