import Verif.Lemmas.Layout
import Verif.Lemmas.LayoutConsole
import Verif.Props.RingParse
import Verif.Props.Scan
/-
C91: white space and comments between tokens do not change what is read.
-/
namespace Maho
open Maho.Spec

/-- Every text that spells a token is read as this token, after any white space and comments, and
with any text after it that does not continue it. The text after the token is left, except that
white space after a string or bytes may be gone. -/
theorem C91_token (env : ScanEnv) (hc : ClassesApart env) (t : Token) (blank w rest : List Nat)
    (hb : Skipped blank) (ht : Proper t) (h : Spells env t w) (hd : Delimited env t rest) :
    (scan env false (blank ++ w ++ rest)).token = t ∧
      ((scan env false (blank ++ w ++ rest)).rest = rest ∨
        (scan env false (blank ++ w ++ rest)).rest = rest.dropWhile isSpace) :=
  scan_spelled env hc hb ht h hd

theorem asciiScan_classes : ClassesApart asciiScan := by
  intro r
  have h : ∀ r, asciiScan.letter r = true ↔ (65 ≤ r ∧ r ≤ 90) ∨ (97 ≤ r ∧ r ≤ 122) := by
    intro r; simp [asciiScan]
  have h2 : ∀ r, asciiScan.digit r = true ↔ 48 ≤ r ∧ r ≤ 57 := by
    intro r; simp [asciiScan]
  refine ⟨fun hl => ?_, fun hd => ?_⟩
  · rw [h] at hl
    refine ⟨?_, space_small (by omega) (by omega)⟩
    cases e : asciiScan.digit r with
    | false => rfl
    | true => rw [h2] at e; omega
  · rw [h2] at hd
    exact space_small (by omega) (by omega)

-- `/*c*/"a" x`
example : (scan asciiScan false ([47, 42, 99, 42, 47] ++ [34, 97, 34] ++ [32, 120])).token =
    .identifier 1 := by
  refine (C91_token asciiScan asciiScan_classes (.identifier 1) [47, 42, 99, 42, 47] [34, 97, 34]
    [32, 120] ?_ ⟨by simp, by simp⟩
    (.inr ⟨34, 34, [97], by decide, by decide, by decide, by decide⟩) ?_).1
  · exact .block [99] [] (by
      rintro ⟨a, b, e⟩
      have hm : 47 ∈ [99] ++ runes "*" := by rw [e]; simp [show runes "*/" = [42, 47] by decide]
      exact absurd hm (by decide)) .nil
  · rintro _ ⟨⟩
    decide

/-- A text that spells tokens one after the other is read as these tokens, whatever white space and
comments are between them. What is missing: a comment directly after an operator of one rune
(`C91_comment`); `Delimited` does not allow it. -/
theorem C91_layout_partial (env : ScanEnv) (hc : ClassesApart env) (ts : List Token) (l : List Nat)
    (h : LaidOut env ts l) : tokenize env l = ts :=
  tokenize_laidOut env hc h

-- `a<--c⏎-1` is `a`, `<` and `-1`.
example : LaidOut asciiScan [.identifier 1, .rune 60, .integer (-1#64)]
    [97, 60, 45, 45, 99, 10, 45, 49] := by
  have h1 : LaidOut asciiScan [.integer (-1#64)] ([45, 45, 99, 10] ++ [45, 49] ++ []) :=
    .cons _ _ _ _ _ (.line [99] [] (by decide) .nil) ⟨by simp, by simp⟩
      ⟨[45], true, [49], 1, by decide, .inr (.inr ⟨rfl, rfl⟩), ⟨by simp, by simp, by decide⟩,
        by decide, by decide⟩ (by rintro _ ⟨⟩) (.nil [] .nil)
  have h2 : LaidOut asciiScan [.rune 60, .integer (-1#64)] ([] ++ [60] ++ _) :=
    .cons _ _ _ _ _ .nil ⟨by simp, by simp⟩ ⟨by decide, by decide⟩
      ⟨by decide, by rintro _ ⟨⟩; decide⟩ h1
  exact .cons _ _ [] [97] _ .nil ⟨by simp, by simp⟩
    (.inl ⟨⟨97, [], by decide, .inl (by decide), by simp⟩, by decide, by decide⟩)
    (by rintro _ ⟨⟩; decide) h2

/-- Two texts that spell the same tokens are parsed alike: every call of `Parse` returns the same
for both, with the ring of three tokens. What is missing is what `C91_layout_partial` misses. -/
theorem C91_parse_partial (env : ParseEnv) (hc : ClassesApart env.toScanEnv) (ts : List Token)
    (l m : List Nat) (hl : LaidOut env.toScanEnv ts l) (hm : LaidOut env.toScanEnv ts m) (k : Nat) :
    RP.parsedAt env (tokenize env.toScanEnv l) k = RP.parsedAt env (tokenize env.toScanEnv m) k := by
  rw [C91_layout_partial env.toScanEnv hc ts l hl, C91_layout_partial env.toScanEnv hc ts m hm]

-- Two layouts of `()`.
example : LaidOut asciiParse.toScanEnv [.rune 40, .rune 41] (runes "()") ∧
    LaidOut asciiParse.toScanEnv [.rune 40, .rune 41] (runes " (\n)--\n") := by
  have h40 : Proper (.rune 40) := ⟨by simp, by simp⟩
  have h41 : Proper (.rune 41) := ⟨by simp, by simp⟩
  have any : ∀ r ∈ [40, 41], ∀ rest, Delimited asciiParse.toScanEnv (.rune r) rest := by
    intro r hr rest
    have : r ∉ runes "-/" ∧ r ∉ runes "+-" ∧ r ∉ runes "-" ∧ r ∉ runes "*/%=<>&|!" := by
      revert r; decide
    exact ⟨fun h => absurd h this.1, fun c _ => ⟨fun h => absurd h this.2.1,
      fun h => absurd h this.2.2.1, fun h => absurd h this.2.2.2⟩⟩
  refine ⟨.cons _ _ [] (runes "(") (runes ")") .nil h40 ⟨by decide, by decide⟩
    (any 40 (by simp) _) (.cons _ _ [] (runes ")") [] .nil h41 ⟨by decide, by decide⟩
      (any 41 (by simp) _) (.nil [] .nil)), ?_⟩
  exact .cons _ _ [32] (runes "(") (runes "\n)--\n") (.space 32 [] (by decide) .nil) h40
    ⟨by decide, by decide⟩ (any 40 (by simp) _)
    (.cons _ _ [10] (runes ")") (runes "--\n") (.space 10 [] (by decide) .nil) h41
      ⟨by decide, by decide⟩ (any 41 (by simp) _) (.nil _ (.line [] [] (by simp) .nil)))

/-- A text spells one list of tokens only. -/
theorem C91_unambiguous (env : ScanEnv) (hc : ClassesApart env) (ts us : List Token) (l : List Nat)
    (h : LaidOut env ts l) (hu : LaidOut env us l) : ts = us := by
  rw [← C91_layout_partial env hc ts l h, ← C91_layout_partial env hc us l hu]

example : LaidOut asciiScan [] (runes " ") := .nil _ (.space 32 [] (by decide) .nil)

/-- The console writes the same for two texts that spell the same tokens. Missing: what
`C91_layout_partial` misses, texts with `COPY`, whose data begins on the next line (C67), and `NULL`
as the value of a variable (`C72_null_crashes`). -/
theorem C91_console_partial (env : ParseEnv) (hc : ClassesApart env.toScanEnv) (ts : List Token)
    (l m : List Nat) (hl : LaidOut env.toScanEnv ts l) (hm : LaidOut env.toScanEnv ts m)
    (hn : ∀ us, us <:+ ts → ¬ NullSetting us) (hy : Token.reserved (-16) ∉ ts) :
    console env l = console env m := by
  have el := C91_layout_partial env.toScanEnv hc ts l hl
  have em := C91_layout_partial env.toScanEnv hc ts m hm
  have hlen : ∀ l, (tokenize env.toScanEnv l).length < l.length + 1 :=
    fun l => Nat.lt_succ_of_le (tokenize_length _ _ _ (Nat.le_refl _))
  have hpr : ∀ {ts l}, LaidOut env.toScanEnv ts l → ∀ t ∈ ts, Proper t := by
    intro ts l h
    induction h with
    | nil => intro t ht; cases ht
    | cons t ts b w r _ hp _ _ _ ih =>
      intro u hu
      rcases List.mem_cons.1 hu with rfl | hu
      · exact hp
      · exact ih u hu
  have hclean : Clean (tokenize env.toScanEnv l) := by
    rw [el]
    exact ⟨fun h => (hpr hl _ h).2 true rfl, fun h => (hpr hl _ h).1 rfl⟩
  refine console_same (l := ts) hn hy _ _ ⟨false, l, false⟩ _ _ ⟨false, m, false⟩ (Follows.new env l)
    (Follows.new env m) rfl (by show tokenize _ _ = tokenize _ _; rw [el, em])
    (by show tokenize _ _ <:+ _; rw [el]; exact List.suffix_refl _) hclean (hlen l) ?_
  have := hlen m
  rw [em, ← el] at this
  exact this

example : (∀ us, us <:+ [Token.rune 40, .rune 41] → ¬ NullSetting us) ∧
    Token.reserved (-16) ∉ [Token.rune 40, .rune 41] ∧
    console asciiParse (runes "SELECT a FROM t; BEGIN") =
      console asciiParse (runes " SELECT a/**/FROM t\n;BEGIN -- x\n") := by
  refine ⟨fun us hu h => ?_, by simp, by decide +kernel⟩
  rcases h with ⟨rest, e⟩ | ⟨v, t, rest, e⟩
  all_goals
    have := hu.subset (show _ ∈ us by rw [e]; exact List.mem_cons_self)
    simp at this

/-- Every text without errors consists of pieces that spell its tokens. If other white space and
comments are put between these pieces, each beginning with white space, the tokens stay the same.
Only a line break, without a comment, between two strings is not allowed, because it joins them
(C57). -/
theorem C91_respaced (env : ScanEnv) (hc : ClassesApart env) (l : List Nat)
    (he : ∀ isNil, Token.error isNil ∉ tokenize env l) :
    ∃ ws, Consists ws l ∧ SpelledBy env (tokenize env l) ws ∧
      ∀ blank seps, Skipped blank → seps.length = ws.length → (∀ s ∈ seps, Separator s) →
        tokenize env (blank ++ spread ws seps) = tokenize env l := by
  obtain ⟨ws, h1, h2⟩ := pieces env _ l (Nat.le_refl _)
  refine ⟨ws, h1, h2, fun blank seps hb hs hp => ?_⟩
  have hpr : ∀ t ∈ tokenize env l, Proper t := by
    intro t ht
    refine ⟨?_, ?_⟩
    · rintro rfl
      exact (tokenize_mem ht).1 rfl
    · rintro b rfl
      exact he b ht
  exact tokenize_laidOut env hc (LaidOut.blank hb (laidOut_spread env hc h2 hpr seps hs hp).1)

-- One space is a separator, and so is a line break with a comment.
example : Separator (runes " ") ∧ Separator (runes "\n--\n") ∧ ¬ Separator (runes "\n") ∧
    (∀ isNil, Token.error isNil ∉ tokenize asciiScan (runes "a<=1||'b'-c")) ∧
    tokenize asciiScan (runes "a<=1||'b'-c") =
      tokenize asciiScan (spread (["a", "<=", "1", "||", "'b'", "-", "c"].map runes)
        (["\t", "\n", "\n--\n", "\n/* */", "\n--\n", " ", " "].map runes)) := by
  refine ⟨⟨⟨32, [], by decide, by decide, .nil⟩, ?_⟩,
    ⟨⟨10, runes "--\n", by decide, by decide, .line [] [] (by simp) .nil⟩, ?_⟩, ?_,
    by decide +kernel, by decide +kernel⟩
  · rintro (⟨m, e⟩ | ⟨ws, m, e, hw, hn⟩)
    · exact absurd (List.cons.inj e).1 (by decide)
    · rcases hn with h | h
      all_goals
        have h2 : ∀ r ∈ runes " " ++ [39], r ≠ 10 ∧ r ≠ 13 := by decide
        have := h2 _ (by rw [e]; exact List.mem_append_left _ h)
        simp at this
  · rintro (⟨m, e⟩ | ⟨ws, m, e, hw, hn⟩)
    · exact absurd (List.cons.inj e).1 (by decide)
    · rw [show runes "\n--\n" ++ [39] = [10, 45, 45, 10, 39] by decide] at e
      match ws, e with
      | [], e => simp at hn
      | [_], e => simp at e
      | _ :: c :: _, e =>
        have : c = 45 := by simp at e; exact e.2.1.symm
        have h2 := hw c (by simp)
        rw [this] at h2
        exact absurd h2 (by decide)
  · exact fun h => h.2 (.inr ⟨[10], [], by decide, by decide, by simp⟩)

/-- A comment directly after an operator of one rune other than `+` and `-` is not a comment: the
scanner takes the `/` for a part of the operator, and reports an error. With white space between
them it is a comment. -/
theorem C91_comment (env : ScanEnv) (r : Nat) (hr : r ∈ runes "*/%=<>&|!") :
    (∀ l, (scan env false (r :: (runes "/*" ++ l))).token = .error false) ∧
    (∀ c l, isSpace c = true → (scan env false (r :: c :: l)).token = .rune r) := by
  have er : runes "*/%=<>&|!" = [42, 47, 37, 61, 60, 62, 38, 124, 33] := by decide
  rw [er] at hr
  constructor
  · intro l
    have facts : ∀ r ∈ [42, 47, 37, 61, 60, 62, 38, 124, 33], isSpace r = false ∧ r ≠ 45 ∧ r < 128 ∧
        ((decide (65 ≤ r) && decide (r ≤ 90) || decide (97 ≤ r) && decide (r ≤ 122)) = false) ∧
        (decide (48 ≤ r) && decide (r ≤ 57)) = false ∧ isOpRune r = true ∧
        operators.lookup [r, 47] = none := by decide
    obtain ⟨f1, f2, f3, f4, f5, o, f6⟩ := facts r hr
    have hl : env.letter r = false := by rw [env.letter_ascii r f3]; exact f4
    have hd : env.digit r = false := by rw [env.digit_ascii r f3]; exact f5
    rw [show runes "/*" = [47, 42] by decide]
    have hst : Starts r (47 :: 42 :: l) := ⟨f1, fun e => absurd e f2, fun _ => ⟨by simp, by simp⟩⟩
    have e : scan env false (r :: 47 :: 42 :: l) = scanOperator false r (47 :: 42 :: l) := by
      unfold scan
      rw [skip_start hst]
      simp only [List.mem_cons, List.not_mem_nil, or_false] at hr
      rcases hr with rfl | rfl | rfl | rfl | rfl | rfl | rfl | rfl | rfl <;> simp [hl, hd, o]
    show (scan env false (r :: 47 :: 42 :: l)).token = _
    have o47 : isOpRune 47 = true := by decide
    rw [e]
    simp [scanOperator, o47, f6]
  · intro c l h
    exact (readAt_operator env hr (rest := c :: l) (by simp) (by
      rintro _ ⟨⟩
      exact (space_facts h).2.2.2.2.2)).2.1

-- An expression with a comment after an operator.
example : (ringText "SELECT a =/* c */ b" 0).isError = true ∧
    (ringText "SELECT a = /* c */ b" 0).isStmt = true := by decide +kernel

end Maho
