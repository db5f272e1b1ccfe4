import Verif.Lemmas.ReadParse
/-
Helper lemmas for C67: calls of the parser, and of the reader of the data, one after the other.
-/
namespace Maho
open Maho.Spec

/-- The scanner after tokens, without positions. -/
abbrev Scanner.step (env : ParseEnv) (s : Scanner) (k : Nat) : Scanner :=
  Scanner.after env.toScanEnv false (fun _ => ⟨0, 0⟩) s k

theorem restAfter_suffix (env : ScanEnv) (l : List Nat) : ∀ k, restAfter env false l k <:+ l
  | 0 => List.suffix_refl _
  | k + 1 => by
    obtain ⟨blank, lexeme, gap, e, -⟩ := scan_spec env (restAfter env false l k)
    exact List.IsSuffix.trans ⟨_, e.symm⟩ (restAfter_suffix env l k)

/-- The parser is at the place `s` in the text `L`. At the end of the text the scanner may not have
counted the rest of the last line. -/
structure Follows (env : ParseEnv) (L : List Nat) (q : Parser) (s : Place) : Prop where
  failed : q.failed = s.failed
  eof : Token.eof ∉ q.input.tokens
  place : ∃ p n m l, q.input.base ≤ m ∧ m ≤ n ∧ n ≤ p ∧ n ≤ q.input.tokens.length ∧ At q.input.tokens q.ring p ∧
    q.input.tokens.drop p = q.input.tokens.drop n ∧
    (∃ L0, (l = [] ∨ L0 = L) ∧ Scanner.Tracks false L0 (q.input.scanner.step env (m - q.input.base)) l) ∧
    q.input.tokens.drop m = tokenize env.toScanEnv l ∧
    s.rest = restAfter env.toScanEnv false l (n - m) ∧
    (s.copying = true → q.ring.scanned = n ∧ q.data env = s.rest)

theorem stream_drop (ts : List Token) (n k : Nat) : RP.stream (ts.drop n) k = RP.stream ts (n + k) := by
  simp [RP.stream, List.getD_eq_getElem?_getD]

theorem stream_take {ts : List Token} {n i : Nat} (l : List Token) (hn : n ≤ ts.length) (h : i < n) :
    RP.stream (ts.take n ++ l) i = RP.stream ts i := by
  unfold RP.stream
  rw [List.getD_eq_getElem?_getD, List.getD_eq_getElem?_getD,
    List.getElem?_append_left (by rw [List.length_take]; omega), List.getElem?_take_of_lt h]

theorem map_stream {ts : List Token} {n : Nat} (hn : n ≤ ts.length) :
    (List.range n).map (RP.stream ts) = ts.take n := by
  apply List.ext_getElem
  · simp; omega
  · intro i h1 h2
    simp at h1
    simp [RP.stream, show i < ts.length by omega]

/-- The tokens after the input has been moved. -/
theorem at_tokens (env : ScanEnv) {ts : List Token} {n : Nat} (hn : n ≤ ts.length) (s : Scanner) :
    (Input.at env ts n s).tokens = ts.take n ++ s.tokens env s.fuel := by
  unfold Input.at
  rw [map_stream hn]

theorem Follows.new (env : ParseEnv) (L : List Nat) : Follows env L (Parser.new env L) ⟨false, L, false⟩ := by
  have ht := Scanner.Tracks.init (fails := false) L
  have e : (Parser.new env L).input.tokens = tokenize env.toScanEnv L := by
    show (Input.at env.toScanEnv [] 0 (Scanner.init L)).tokens = _
    rw [at_tokens _ (Nat.zero_le _), Scanner.tokens_eq _ ht]
    rfl
  refine ⟨rfl, ?_, 0, 0, 0, L, Nat.le_refl _, Nat.le_refl _, Nat.le_refl _, Nat.zero_le _, At.new, rfl, ⟨L, .inr rfl, ht⟩, e, rfl,
    fun h => by cases h⟩
  rw [e]
  exact eof_not_mem_tokenize _ _

/-- The tokens that are left. -/
theorem Follows.tokens {env : ParseEnv} {ts : List Token} {n m : Nat} {l rest : List Nat}
    (hm : m ≤ n) (h1 : ts.drop m = tokenize env.toScanEnv l)
    (h2 : rest = restAfter env.toScanEnv false l (n - m)) : ts.drop n = tokenize env.toScanEnv rest := by
  rw [h2, ← tokenize_drop, ← h1, List.drop_drop]
  congr 1
  omega

/-- Reading a rune of the data. -/
theorem Follows.read {env : ParseEnv} {L : List Nat} {q : Parser} {s : Place} (h : Follows env L q s)
    (hc : s.copying = true) : ReaderResult.rune (q.readFrom env).1 = s.read.1 ∧
      Follows env L (q.readFrom env).2 s.read.2 := by
  obtain ⟨h0, he, p, n, m, l, h1, h2, h3, e2, h4, h5, ⟨L0, hL0, h6⟩, h7, h8, h9⟩ := h
  obtain ⟨e1, e3⟩ := h9 hc
  have hp := h4.holds.place
  have hpn : p = n := by omega
  subst hpn
  have hend : s.rest = [] ∨ L0 = L := hL0.imp (fun e => by
    have : s.rest <:+ [] := h8 ▸ e ▸ restAfter_suffix env.toScanEnv l _
    exact List.suffix_nil.1 this) id
  have hnow : Scanner.Tracks false L0 (q.input.now env.toScanEnv q.ring) s.rest := by
    have := h6.after env.toScanEnv (fun _ => ⟨0, 0⟩) (p - m)
    rw [← Scanner.after_add, ← h8] at this
    unfold Input.now
    rw [e1, show p - q.input.base = m - q.input.base + (p - m) by omega]
    exact this
  have key : ∀ s' : Scanner, ∀ rest, (rest = [] ∨ L0 = L) → Scanner.Tracks false L0 s' rest →
      s'.runes = rest →
      Follows env L { q with input := .at env.toScanEnv q.input.tokens q.ring.scanned s' }
        { s with rest := rest } := by
    intro s' rest hend hs hr
    have et := at_tokens env.toScanEnv (ts := q.input.tokens) (n := p) e2 s'
    rw [Scanner.tokens_eq _ hs] at et
    rw [e1]
    have hlen : (q.input.tokens.take p).length = p := by rw [List.length_take]; omega
    refine ⟨h0, ?_, p, p, p, rest, Nat.le_refl _, Nat.le_refl _, Nat.le_refl _, ?_, ?_, rfl, ?_, ?_, ?_,
      ?_⟩
    · show Token.eof ∉ (Input.at env.toScanEnv q.input.tokens p s').tokens
      rw [et, List.mem_append]
      rintro (h | h)
      · exact he (List.mem_of_mem_take h)
      · exact eof_not_mem_tokenize _ _ h
    · show p ≤ (Input.at env.toScanEnv q.input.tokens p s').tokens.length
      rw [et, List.length_append]
      omega
    · show At (Input.at env.toScanEnv q.input.tokens p s').tokens q.ring p
      rw [et]
      exact h4.congr fun i hi => stream_take _ e2 (by omega)
    · refine ⟨L0, hend, ?_⟩
      show Scanner.Tracks false L0 (s'.step env (p - p)) rest
      rw [Nat.sub_self]
      exact hs
    · show (Input.at env.toScanEnv q.input.tokens p s').tokens.drop p = _
      rw [et, List.drop_append_of_le_length (by omega), List.drop_eq_nil_of_le (by omega)]
      rfl
    · rw [Nat.sub_self]
      rfl
    · intro _
      refine ⟨e1, ?_⟩
      show (s'.step env (q.ring.scanned - p)).runes = rest
      rw [e1, Nat.sub_self]
      exact hr
  unfold Parser.readFrom
  dsimp only
  cases hr : s.rest with
  | nil =>
    have e4 : (q.input.now env.toScanEnv q.ring).runes = [] := e3.trans hr
    have : (q.input.now env.toScanEnv q.ring).readFrom = (none, q.input.now env.toScanEnv q.ring) := by
      unfold Scanner.readFrom
      rw [e4]
    rw [this]
    refine ⟨by simp [Place.read, hr], ?_⟩
    have := key _ [] (.inl rfl) (hr ▸ hnow) e4
    simpa [Place.read, hr] using this
  | cons r rest =>
    rw [hr] at hnow
    obtain ⟨g1, g2, g3⟩ := Scanner.readFrom_tracks hnow (e3.trans hr)
    refine ⟨by rw [g1]; simp [Place.read, hr], ?_⟩
    have := key _ rest (hend.imp (fun e => by rw [hr] at e; cases e) id) g2 g3
    simpa [Place.read, hr] using this

/-- After a statement that is not COPY. -/
theorem Follows.other {env : ParseEnv} {L : List Nat} {q : Parser} {s : Place} (h : Follows env L q s)
    {b : Bool} {r : Ring} {p2 : Nat} (ha : At q.input.tokens r p2)
    (hs : q.input.tokens.drop p2 <:+ s.tokens env)
    (hl : (Maho.parse env s.failed (s.tokens env)).2 = (b, q.input.tokens.drop p2)) :
    Follows env L ⟨b, r, q.input⟩
      ⟨b, restAfter env.toScanEnv false s.rest (s.taken env), false⟩ := by
  obtain ⟨h0, he, p, n, m, l, h1, h2, h3, hn, h4, h5, h6, h7, h8, -⟩ := h
  have ht : q.input.tokens.drop n = s.tokens env := Follows.tokens h2 h7 h8
  have hk : s.taken env = q.input.tokens.length - n - (q.input.tokens.length - p2) := by
    unfold Place.taken
    rw [hl, ← ht, List.length_drop, List.length_drop]
  have hlen := hs.length_le
  rw [← ht, List.length_drop, List.length_drop] at hlen
  refine ⟨rfl, he, p2, n + s.taken env, m, l, h1, by omega, by omega, by dsimp only; omega, ha, ?_, h6, h7,
    ?_, fun h => by cases h⟩
  · dsimp only
    by_cases h : p2 ≤ q.input.tokens.length
    · congr 1
      omega
    · rw [List.drop_eq_nil_of_le (by omega), List.drop_eq_nil_of_le (by omega)]
  · dsimp only
    rw [h8, ← restAfter_add]
    congr 1
    omega

theorem scan_semi (env : ScanEnv) (l : List Nat) : scan env false (59 :: l) = ⟨.endOfStatement, [], l⟩ := by
  rw [Scanner.scan_eq_from]
  have : skip .space (59 :: l) = some (59, l) := by
    cases l <;> rfl
  rw [this]
  rfl

theorem statement_suffix (env : ParseEnv) (s : Place) : s.statement env <:+ s.tokens env := by
  unfold Place.statement
  split
  · exact afterSemicolon_suffix _
  · exact List.suffix_refl _

/-- After COPY. -/
theorem Follows.copy {env : ParseEnv} {L : List Nat} {q : Parser} {s : Place} (h : Follows env L q s)
    (hp : s.Plain env) (hc : s.isCopy env) {r : Ring} {p' : Nat} (ha : At q.input.tokens r p')
    (hd : q.input.tokens.drop p' = s.statement env)
    (hl : Maho.parse env s.failed (s.tokens env) = parseRecover env (q.input.tokens.drop p'))
    (hq : q.parse env = Parser.recover env q.input r) :
    ReaderResult.parsed (q.parse env).1 (q.parse env).2.1 = (s.parse env L).1 ∧
      Follows env L (q.parse env).2.2 (s.parse env L).2 := by
  obtain ⟨h0, he, p, n, m, l, h1, h2, h3, hn, h4, h5, ⟨L0, hL0, h6⟩, h7, h8, -⟩ := h
  have ht : q.input.tokens.drop n = s.tokens env := Follows.tokens h2 h7 h8
  have hL : L0 = L := by
    rcases hL0 with e | e
    · exfalso
      have hr : s.rest <:+ [] := h8 ▸ e ▸ restAfter_suffix env.toScanEnv l _
      have ht0 : s.tokens env = [] := by
        unfold Place.tokens
        rw [List.suffix_nil.1 hr, tokenize_nil]
      have := (statement_suffix env s)
      rw [ht0] at this
      have := List.suffix_nil.1 this
      unfold Place.isCopy at hc
      rw [this] at hc
      cases hc
    · exact e
  rw [hL] at h6
  generalize hts : q.input.tokens = ts at *
  -- the statement
  obtain ⟨st, hst⟩ := hp.accepted hc
  obtain ⟨tl, htl⟩ : ∃ tl, ts.drop p' = .reserved Kw.COPY :: tl := by
    have := hc
    unfold Place.isCopy at this
    rw [← hd] at this
    cases hx : ts.drop p' with
    | nil => rw [hx] at this; cases this
    | cons t tl =>
      rw [hx] at this
      cases this
      exact ⟨tl, rfl⟩
  have hp' : p' < ts.length := by
    rcases Nat.lt_or_ge p' ts.length with h | h
    · exact h
    · rw [List.drop_eq_nil_of_le h] at htl; cases htl
  have hnp : n ≤ p' := by
    have := (statement_suffix env s).length_le
    rw [← hd, ← ht, List.length_drop, List.length_drop] at this
    omega
  have hsp : RP.stream ts p' = .reserved Kw.COPY := by
    rcases drop_stream (ts := ts) p' with ⟨-, e⟩ | ⟨e, -⟩
    · rw [htl] at e
      exact (List.cons.inj e).1.symm
    · omega
  have hsuf : (parseRecover env (ts.drop p')).2.2 <:+ tl := by
    have hB : Clean (ts.drop p') :=
      ⟨fun h => hp.clean ((statement_suffix env s).subset (hd ▸ h)),
        fun h => he (List.mem_of_mem_drop h)⟩
    have hN : ¬ NullSetting (ts.drop p') := by
      rw [hd]
      exact hp.setting
    rw [htl] at hB hN ⊢
    exact (parseRecover_ok (env := env) hB hN).2
  have hrec : (parseRecover env (.reserved Kw.COPY :: tl)).1 = .stmt st := by
    rw [← htl, ← hl]
    exact hst
  obtain ⟨t, rest, left, rfl, hpc, hee, hpr⟩ := recover_copy hrec
  -- with the ring
  obtain ⟨r4, p4, hk', ha4, e4, hstd⟩ : ∃ r4 p4, RP.keyword ts r = .ok (some Kw.COPY) r4 ∧ At ts r4 p4 ∧
      tl = ts.drop p4 ∧ Std ts p4 r4.unscanned := by
    have hk := sim_keyword he r p' ha trivial
    rw [htl, keyword_eq] at hk
    revert hk
    cases RP.keyword ts r with
    | ok o r4 =>
      rintro ⟨rfl, p4, g1, g2, g3⟩
      exact ⟨r4, p4, rfl, g1, g2, g3 (by simp)⟩
    | _ => exact fun h => h.elim
  obtain ⟨r5, p5, hcp, ha5, e5, hp5, hac⟩ : ∃ r5 p5, RP.parseCopy ts r4 = .ok t r5 ∧ At ts r5 p5 ∧
      rest = ts.drop p5 ∧ AfterCopy ts p5 r5.unscanned := by
    have hk := sim_copyPlace he r4 p4 ha4 hstd
    rw [← e4, hpc] at hk
    revert hk
    cases RP.parseCopy ts r4 with
    | ok o r5 =>
      rintro ⟨rfl, p5, g1, g2, g3⟩
      exact ⟨r5, p5, rfl, g1, g2, g3⟩
    | _ => exact fun h => h.elim
  -- how far the statement goes
  have hleft : left = ts.drop (p5 + 1) := by
    rw [expectEnd_list hee, e5, List.drop_drop]
  have hlist : Maho.parse env s.failed (s.tokens env) = (.stmt (some t), false, left) := by
    rw [hl, htl]
    exact hpr
  have hk : s.taken env = ts.length - n - (ts.length - (p5 + 1)) := by
    unfold Place.taken
    rw [hlist, hleft, ← ht, List.length_drop, List.length_drop]
  have hlen : ts.length - (p5 + 1) ≤ ts.length - p' - 1 := by
    have h := hsuf.length_le
    have h2 := congrArg List.length htl
    rw [htl, hpr, hleft, List.length_drop] at h
    rw [List.length_drop, List.length_cons] at h2
    omega
  have hbefore : p5 ≤ ts.length := by
    rcases Nat.lt_or_ge ts.length p5 with h | h
    · exfalso
      have : before ts p5 = .eof := (stream_eof he _).2 (by omega)
      rcases hac with ⟨e, -⟩ | ⟨⟨b, e⟩, -⟩ <;> rw [this] at e <;> cases e
    · exact h
  have htok : ∀ j, tokenAt env.toScanEnv false s.rest j = RP.stream ts (n + j) := by
    intro j
    rw [← stream_drop, ht]
    exact (stream_tokenize _ _ _).symm
  have hsemi := hp.semicolon hc
  rw [htok] at hsemi
  have hlt : p5 < ts.length := by
    rcases Nat.lt_or_ge p5 ts.length with h | h
    · exact h
    · exfalso
      rw [show n + (s.taken env - 1) = p5 - 1 by omega] at hsemi
      have : before ts p5 = .endOfStatement := hsemi
      rcases hac with ⟨e, -⟩ | ⟨⟨b, e⟩, -⟩ <;> rw [this] at e <;> cases e
  have hk2 : n + s.taken env = p5 + 1 := by omega
  rw [show n + (s.taken env - 1) = p5 by omega] at hsemi
  have hne : p5 ≠ p' := by
    rintro rfl
    rw [hsp] at hsemi
    cases hsemi
  have hrest : ∀ j, restAfter env.toScanEnv false s.rest j =
      restAfter env.toScanEnv false l (n - m + j) := by
    intro j
    rw [h8, ← restAfter_add]
  have hdelim := hp.delimiter hc
  rw [htok, show n + (s.taken env - 2) = p5 - 1 by omega] at hdelim
  -- the scanner
  have hplace := ha5.holds.place
  have hnow : q.input.now env.toScanEnv r5 =
      (q.input.scanner.step env (m - q.input.base)).step env (r5.scanned - m) := by
    unfold Input.now Scanner.step
    rw [← Scanner.after_add]
    congr 1
    omega
  have htrack := h6.after env.toScanEnv (fun _ => ⟨0, 0⟩) (r5.scanned - m)
  rw [← Scanner.step, ← hnow] at htrack
  have hlm : ∀ j, tokenAt env.toScanEnv false l j = RP.stream ts (m + j) := by
    intro j
    rw [← stream_drop, h7]
    exact (stream_tokenize _ _ _).symm
  -- what is proved in both cases
  have hfinal : ∀ (r6 : Ring) (i : Input), i = .at env.toScanEnv ts r5.scanned
      (q.input.now env.toScanEnv r5).runeReader →
      (q.input.now env.toScanEnv r5).runes = restAfter env.toScanEnv false s.rest (s.taken env) →
      RP.expectEndOfStatement i.tokens r5 = .ok () r6 →
      Follows env L ⟨false, r6, i⟩
        ⟨false, nextLine (restAfter env.toScanEnv false s.rest (s.taken env)), true⟩ →
      ReaderResult.parsed (q.parse env).1 (q.parse env).2.1 = (s.parse env L).1 ∧
        Follows env L (q.parse env).2.2 (s.parse env L).2 := by
    rintro r6 i rfl hr he6 hf
    have hparse : q.parse env = (.stmt (some t), some (q.input.now env.toScanEnv r5).runeReader.line,
        ⟨false, r6, .at env.toScanEnv ts r5.scanned (q.input.now env.toScanEnv r5).runeReader⟩) := by
      rw [hq]
      unfold Parser.recover Input.stmt
      rw [hts, hk']
      dsimp only
      rw [if_pos rfl, hcp]
      dsimp only
      rw [he6]
    obtain ⟨d, g1, g2, -⟩ := Scanner.runeReader_place htrack
    have hs : s.parse env L = (.parsed (.stmt (some t)) (some (q.input.now env.toScanEnv r5).runeReader.line),
        ⟨false, nextLine (restAfter env.toScanEnv false s.rest (s.taken env)), true⟩) := by
      unfold Place.parse
      rw [hlist]
      dsimp only
      rw [if_pos hc, g2]
      have : L.take (L.length - (nextLine (restAfter env.toScanEnv false s.rest (s.taken env))).length) = d := by
        rw [← hr]
        conv => lhs; rw [g1]
        simp
      rw [this]
    rw [hparse, hs]
    exact ⟨rfl, hf⟩
  rcases hac with ⟨hb, hu⟩ | ⟨⟨b, hb⟩, hu⟩
  · -- the `;` has been read and put back
    have hsc : r5.scanned = p5 + 1 := by omega
    rw [hsc] at htrack hnow
    have hstep : q.input.now env.toScanEnv r5 = (Scanner.scan env.toScanEnv false ⟨0, 0⟩
        ((q.input.scanner.step env (m - q.input.base)).step env (p5 - m))).2.2 := by
      rw [hnow, show p5 + 1 - m = p5 - m + 1 by omega]
      rfl
    obtain ⟨g1, -, -, g2, -⟩ := Scanner.agrees_scan env.toScanEnv ⟨0, 0⟩
      (h6.after env.toScanEnv (fun _ => ⟨0, 0⟩) (p5 - m))
    have g3 := hlm (p5 - m)
    rw [show m + (p5 - m) = p5 by omega, hsemi] at g3
    have hun : (q.input.now env.toScanEnv r5).unread = false := by
      rw [hstep]
      exact g2 (g1.trans g3)
    have haft : restAfter env.toScanEnv false s.rest (s.taken env) =
        restAfter env.toScanEnv false l (p5 + 1 - m) := by
      rw [hrest]
      congr 1
      omega
    have hrunes : (q.input.now env.toScanEnv r5).runes =
        restAfter env.toScanEnv false s.rest (s.taken env) := by
      rw [haft, ← htrack.rest]
      unfold Scanner.rest
      rw [if_neg (by rw [hun]; simp)]
      rfl
    obtain ⟨L1, hL1, hdata⟩ := Scanner.runeReader_tracks htrack (q.input.now env.toScanEnv r5).runeReader.buf
    have hsame : { (q.input.now env.toScanEnv r5).runeReader with
        unread := false, buf := (q.input.now env.toScanEnv r5).runeReader.buf } =
        (q.input.now env.toScanEnv r5).runeReader := by
      have : (q.input.now env.toScanEnv r5).runeReader.unread = false := by
        unfold Scanner.runeReader
        rw [Scanner.skipLine_eq]
        exact hun
      rw [← this]
    rw [hsame, hrunes] at hdata
    rw [hrunes] at hL1
    have het : (Input.at env.toScanEnv ts r5.scanned (q.input.now env.toScanEnv r5).runeReader).tokens =
        ts.take (p5 + 1) ++ tokenize env.toScanEnv
          (nextLine (restAfter env.toScanEnv false s.rest (s.taken env))) := by
      rw [hsc, at_tokens _ (by omega), Scanner.tokens_eq _ hdata]
    have ha5' : At (Input.at env.toScanEnv ts r5.scanned
        (q.input.now env.toScanEnv r5).runeReader).tokens r5 p5 := by
      rw [het]
      exact ha5.congr fun i hi => stream_take _ (by omega) (by omega)
    obtain ⟨r6, k1, k2, k3, k4⟩ := end_at ha5' (by
      rw [het, stream_take _ (by omega) (by omega)]
      exact hsemi)
    refine hfinal r6 _ rfl hrunes k1 ⟨rfl, ?_, p5 + 1, p5 + 1, p5 + 1,
      nextLine (restAfter env.toScanEnv false s.rest (s.taken env)), ?_, Nat.le_refl _,
      Nat.le_refl _, ?_, k2, rfl, ?_, ?_, ?_, ?_⟩
    · dsimp only
      rw [het, List.mem_append]
      rintro (h | h)
      · exact he (List.mem_of_mem_take h)
      · exact eof_not_mem_tokenize _ _ h
    · show r5.scanned ≤ p5 + 1
      omega
    · dsimp only
      rw [het, List.length_append, List.length_take]
      omega
    · refine ⟨L1, hL1, ?_⟩
      show Scanner.Tracks false L1 (Scanner.step env (q.input.now env.toScanEnv r5).runeReader
        (p5 + 1 - r5.scanned)) _
      rw [hsc, Nat.sub_self]
      exact hdata
    · dsimp only
      rw [het, List.drop_append_of_le_length (by rw [List.length_take]; omega),
        List.drop_eq_nil_of_le (by rw [List.length_take]; omega)]
      rfl
    · rw [Nat.sub_self]
      rfl
    · intro _
      refine ⟨by dsimp only; omega, ?_⟩
      show (Scanner.step env (q.input.now env.toScanEnv r5).runeReader (r6.scanned - r5.scanned)).runes = _
      rw [show r6.scanned - r5.scanned = 0 by omega]
      show (q.input.now env.toScanEnv r5).runeReader.runes = _
      unfold Scanner.runeReader
      rw [Scanner.skipLine_eq, hrunes]
  · -- the `;` has been read by the scanner only
    have hsc : r5.scanned = p5 := by omega
    rw [hsc] at htrack hnow
    have hstep : q.input.now env.toScanEnv r5 = (Scanner.scan env.toScanEnv false ⟨0, 0⟩
        ((q.input.scanner.step env (m - q.input.base)).step env (p5 - 1 - m))).2.2 := by
      rw [hnow, show p5 - m = p5 - 1 - m + 1 by omega]
      rfl
    obtain ⟨g1, -, -, -, g2, -⟩ := Scanner.agrees_scan env.toScanEnv ⟨0, 0⟩
      (h6.after env.toScanEnv (fun _ => ⟨0, 0⟩) (p5 - 1 - m))
    have g3 := hlm (p5 - 1 - m)
    rw [show m + (p5 - 1 - m) = p5 - 1 by omega] at g3
    have hun : (q.input.now env.toScanEnv r5).unread = true := by
      rw [hstep]
      exact g2 _ (g1.trans (g3.trans hb))
    have hat : restAfter env.toScanEnv false s.rest (s.taken env - 1) =
        restAfter env.toScanEnv false l (p5 - m) := by
      rw [hrest]
      congr 1
      omega
    have hsem := hdelim _ hb
    obtain ⟨x, hx⟩ : ∃ x, restAfter env.toScanEnv false s.rest (s.taken env - 1) = 59 :: x := by
      revert hsem
      cases restAfter env.toScanEnv false s.rest (s.taken env - 1) with
      | nil => intro h; cases h
      | cons a x => intro h; cases h; exact ⟨x, rfl⟩
    have haft : restAfter env.toScanEnv false s.rest (s.taken env) = x := by
      rw [show s.taken env = s.taken env - 1 + 1 by omega]
      show (scan env.toScanEnv false (restAfter env.toScanEnv false s.rest (s.taken env - 1))).rest = x
      rw [hx, scan_semi]
    have hread : (q.input.now env.toScanEnv r5).read = 59 ∧ (q.input.now env.toScanEnv r5).runes = x := by
      have h1 := htrack.rest
      rw [← hat, hx] at h1
      unfold Scanner.rest at h1
      rcases htrack.ok hun with ⟨e1, e2, -⟩ | e
      · rw [e2, if_neg (by rw [e1]; simp)] at h1
        cases h1
      · rw [if_pos ⟨hun, e⟩] at h1
        simp only [List.singleton_append, List.cons.injEq] at h1
        exact ⟨by omega, h1.2⟩
    have hrunes : (q.input.now env.toScanEnv r5).runes =
        restAfter env.toScanEnv false s.rest (s.taken env) := by rw [hread.2, haft]
    obtain ⟨L1, hL1, hdata⟩ := Scanner.runeReader_tracks htrack []
    rw [hrunes] at hdata hL1
    have hr1 : (q.input.now env.toScanEnv r5).runeReader.unread = true := by
      unfold Scanner.runeReader
      rw [Scanner.skipLine_eq]
      exact hun
    have hr2 : (q.input.now env.toScanEnv r5).runeReader.read = 59 := by
      unfold Scanner.runeReader
      rw [Scanner.skipLine_eq]
      exact hread.1
    have hr3 : (q.input.now env.toScanEnv r5).runeReader.runes =
        nextLine (restAfter env.toScanEnv false s.rest (s.taken env)) := by
      unfold Scanner.runeReader
      rw [Scanner.skipLine_eq, hrunes]
    have hscan := Scanner.scan_semicolon env.toScanEnv ⟨0, 0⟩ hr1 hr2
    have htoks : (q.input.now env.toScanEnv r5).runeReader.tokens env.toScanEnv
        (q.input.now env.toScanEnv r5).runeReader.fuel = .endOfStatement :: tokenize env.toScanEnv
          (nextLine (restAfter env.toScanEnv false s.rest (s.taken env))) := by
      unfold Scanner.fuel Scanner.tokens
      rw [hscan]
      dsimp only
      rw [if_neg (by simp), Scanner.tokens_fuel _ _ hdata, hr3]
      rfl
    have het : (Input.at env.toScanEnv ts r5.scanned (q.input.now env.toScanEnv r5).runeReader).tokens =
        ts.take p5 ++ .endOfStatement :: tokenize env.toScanEnv
          (nextLine (restAfter env.toScanEnv false s.rest (s.taken env))) := by
      rw [hsc, at_tokens _ (by omega), htoks]
    have htake : (ts.take p5).length = p5 := by rw [List.length_take]; omega
    have ha5' : At (Input.at env.toScanEnv ts r5.scanned
        (q.input.now env.toScanEnv r5).runeReader).tokens r5 p5 := by
      rw [het]
      exact ha5.congr fun i hi => stream_take _ (by omega) (by omega)
    obtain ⟨r6, k1, k2, k3, k4⟩ := end_at ha5' (by
      rw [het]
      unfold RP.stream
      rw [List.getD_eq_getElem?_getD, List.getElem?_append_right (by omega), htake, Nat.sub_self]
      rfl)
    refine hfinal r6 _ rfl hrunes k1 ⟨rfl, ?_, p5 + 1, p5 + 1, p5 + 1,
      nextLine (restAfter env.toScanEnv false s.rest (s.taken env)), ?_, Nat.le_refl _,
      Nat.le_refl _, ?_, k2, rfl, ?_, ?_, ?_, ?_⟩
    · dsimp only
      rw [het, List.mem_append, List.mem_cons]
      rintro (h | h | h)
      · exact he (List.mem_of_mem_take h)
      · cases h
      · exact eof_not_mem_tokenize _ _ h
    · show r5.scanned ≤ p5 + 1
      omega
    · dsimp only
      rw [het, List.length_append, htake, List.length_cons]
      omega
    · refine ⟨L1, hL1, ?_⟩
      show Scanner.Tracks false L1 (Scanner.step env (q.input.now env.toScanEnv r5).runeReader
        (p5 + 1 - r5.scanned)) _
      rw [hsc, show p5 + 1 - p5 = 1 by omega]
      show Scanner.Tracks false L1 (Scanner.scan env.toScanEnv false ⟨0, 0⟩
        (q.input.now env.toScanEnv r5).runeReader).2.2 _
      rw [hscan]
      exact hdata
    · dsimp only
      rw [het, List.drop_append, List.drop_eq_nil_of_le (by omega), htake,
        show p5 + 1 - p5 = 1 by omega]
      rfl
    · rw [Nat.sub_self]
      rfl
    · intro _
      refine ⟨by dsimp only; omega, ?_⟩
      show (Scanner.step env (q.input.now env.toScanEnv r5).runeReader (r6.scanned - r5.scanned)).runes = _
      rw [show r6.scanned - r5.scanned = 1 by omega]
      show (Scanner.scan env.toScanEnv false ⟨0, 0⟩
        (q.input.now env.toScanEnv r5).runeReader).2.2.runes = _
      rw [hscan]
      exact hr3

/-- A call of `Parse`. -/
theorem Follows.parse {env : ParseEnv} {L : List Nat} {q : Parser} {s : Place} (h : Follows env L q s)
    (hp : s.Plain env) : ReaderResult.parsed (q.parse env).1 (q.parse env).2.1 = (s.parse env L).1 ∧
      Follows env L (q.parse env).2.2 (s.parse env L).2 := by
  have h' := h
  obtain ⟨h0, he, p, n, m, l, h1, h2, h3, hn, h4, h5, h6, h7, h8, -⟩ := h
  have ht : q.input.tokens.drop p = s.tokens env := h5.trans (Follows.tokens h2 h7 h8)
  have hB : Clean (q.input.tokens.drop p) :=
    ⟨by rw [ht]; exact hp.clean, fun h => he (List.mem_of_mem_drop h)⟩
  have hok := parse_ok (env := env) (failed := s.failed) (ht ▸ hB) hp.setting
  have hsuf : (Maho.parse env s.failed (s.tokens env)).2.2 <:+ s.tokens env := by
    rcases hok with ⟨-, h, -⟩ | ⟨-, h⟩ <;> exact h
  have hret : (Maho.parse env s.failed (s.tokens env)).1.returns := by
    rcases hok with ⟨⟨t, h⟩ | h, -⟩ | ⟨h, -⟩ <;> rw [h] <;> trivial
  have hother : ∀ {a : Parsed} {b : Bool} {r : Ring} {p2 : Nat}, ¬ s.isCopy env →
      q.parse env = (a, none, ⟨b, r, q.input⟩) → At q.input.tokens r p2 →
      Maho.parse env s.failed (s.tokens env) = (a, b, q.input.tokens.drop p2) →
      ReaderResult.parsed (q.parse env).1 (q.parse env).2.1 = (s.parse env L).1 ∧
        Follows env L (q.parse env).2.2 (s.parse env L).2 := by
    intro a b r p2 hc e1 ha e2
    have hs : s.parse env L = (.parsed a none,
        ⟨b, restAfter env.toScanEnv false s.rest (s.taken env), false⟩) := by
      unfold Place.parse
      rw [e2]
      dsimp only
      rw [if_neg hc]
    rw [e1, hs]
    refine ⟨rfl, h'.other ha ?_ (by rw [e2])⟩
    rw [e2] at hsuf
    exact hsuf
  rcases parse_cases he env rfl h4 with ⟨a, b, r, p2, e1, e2, e3, e4⟩ | ⟨r, p2, e1, e2, e3, e4⟩
  · rw [ht, h0] at e3
    refine hother (fun hc => ?_) e1 e2 e3
    obtain ⟨t, h⟩ := hp.accepted hc
    rw [e3] at h
    exact e4 t h
  · rw [ht, h0] at e3 e4
    by_cases hc : s.isCopy env
    · exact h'.copy hp hc e2 e3 e4 e1
    · obtain ⟨g1, g2, g3⟩ := recover_other he env (i := q.input) rfl e2 (by
        rw [e3]
        exact hc)
      obtain ⟨k1, k2⟩ := same_recover he env e2
      rw [← e4] at k1 k2
      obtain ⟨k3, p3, k4, k5⟩ := k2 hret
      refine hother hc (a := (Maho.parse env s.failed (s.tokens env)).1)
        (b := (Maho.parse env s.failed (s.tokens env)).2.1) ?_ k4 ?_
      · rw [e1, k1, k3, ← g1, ← g2, ← g3 (k1 ▸ hret)]
      · rw [← k5]

theorem Follows.run {env : ParseEnv} {L : List Nat} : ∀ (calls : List ReaderCall) {q : Parser}
    {s : Place}, Follows env L q s → s.Fine env L calls → q.run env calls = s.run env L calls
  | [], _, _, _, _ => rfl
  | .parse :: calls, q, s, h, hf => by
    obtain ⟨e1, e2⟩ := h.parse hf.1
    show ReaderResult.parsed (q.parse env).1 (q.parse env).2.1 :: Parser.run env (q.parse env).2.2 calls = _
    rw [e1, Follows.run calls e2 hf.2]
    rfl
  | .read :: calls, q, s, h, hf => by
    obtain ⟨e1, e2⟩ := h.read hf.1
    show ReaderResult.rune (q.readFrom env).1 :: Parser.run env (q.readFrom env).2 calls = _
    rw [e1, Follows.run calls e2 hf.2]
    rfl

theorem fine_reads (env : ParseEnv) (L : List Nat) : ∀ (n : Nat) (d : List Nat),
    Place.Fine env L ⟨false, d, true⟩ (List.replicate n .read)
  | 0, _ => trivial
  | n + 1, d => ⟨rfl, fine_reads env L n d.tail⟩

theorem run_reads (env : ParseEnv) (L : List Nat) : ∀ d : List Nat,
    Place.run env L ⟨false, d, true⟩ (List.replicate (d.length + 1) .read) =
      d.map (fun r => .rune (some r)) ++ [.rune none]
  | [] => rfl
  | r :: d => by
    show ReaderResult.rune (some r) ::
      Place.run env L ⟨false, d, true⟩ (List.replicate (d.length + 1) .read) = _
    rw [run_reads env L d]
    rfl

theorem take_front {l a b : List Nat} (h : l = a ++ b) : l.take (l.length - b.length) = a := by
  subst h
  simp

end Maho
