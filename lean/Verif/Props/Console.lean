import Verif.Lemmas.ConsoleEnds
/-
C72 and C73: the console, and the statements of a text.
-/
namespace Maho
open Maho.Spec

/-! ### C72: the console -/

/-- On every text the console ends, at the end of the text or by a panic, and writes at most as many
lines as there are runes: those for the results of the calls of `Parse`, in this order. -/
theorem C72_always_ends (env : ParseEnv) (l : List Nat) :
    ((console env l).2 = some .ended ∨ (console env l).2 = some .crashed) ∧
      (console env l).1.length ≤ l.length ∧
      (console env l).1 =
        linesOf env ((Parser.new env l).run env (List.replicate (l.length + 1) .parse)) := by
  obtain ⟨h1, h2⟩ := going_console (l.length + 1) _ _ (Going.new env l) (Nat.lt_succ_self _)
  exact ⟨h1, h2, console_lines _ _⟩

/-- A `COPY` without `;` that takes the end of the line before, and one at the end of the text: neither
is a case of C67. -/
example : console asciiParse (runes "COPY t (a) FROM STDIN x\nx; BEGIN\n; COPY t (a) FROM STDIN") =
    ([.error, .text (ascii "COPY t (a) FROM STDIN")], some .ended) := by decide +kernel

/-- The console ends at the end of the text, after at most as many lines as there are tokens.
Missing: texts with `COPY`, whose data begins on the next line (C67), `NULL` as the value of a
variable (`C72_null_crashes`), and the escape of `C72_escape_crashes`. -/
theorem C72_ends_partial (env : ParseEnv) (l : List Nat) (h : ¬ PanicEscape l)
    (hn : ∀ ts, ts <:+ tokenize env.toScanEnv l → ¬ NullSetting ts)
    (hy : Token.reserved (-16) ∉ tokenize env.toScanEnv l) :
    (console env l).2 = some .ended ∧
      (console env l).1.length ≤ (tokenize env.toScanEnv l).length :=
  console_ends hn hy _ _ ⟨false, l, false⟩ (Follows.new env l) (List.suffix_refl _)
    (tokenize_clean h) (Nat.lt_succ_of_le (tokenize_length _ _ _ (Nat.le_refl _)))

/-- The console writes what it reads: for a text with the tokens of printed statements it writes these
statements, in this order, and ends. Missing: what is missing from C63, and `COPY`. -/
theorem C72_echo_partial (env : ParseEnv) (hw : KnowsWords env.toScanEnv) (ss : List Stmt)
    (l : List Nat) (h : Script env ss (tokenize env.toScanEnv l)) :
    ∃ bs : List Bytes, ss.map (·.print env) = bs.map .ok ∧
      console env l = (bs.map .text, some .ended) := by
  obtain ⟨h1, h2⟩ := Reads.of_script hw h
  exact reads_console h1 _ h2

/-- The same for texts with `COPY`, and what is written: the lines are those for the statements and
errors that the calls of `Parse` should return by C67, where the data of a `COPY` is the text from the
next line on. The console does not read the data, so that it goes on there. Missing: what is missing
from C67, and the texts that panic. -/
theorem C72_copy_partial (env : ParseEnv) (l : List Nat)
    (h : Place.Fine env l ⟨false, l, false⟩ (List.replicate (l.length + 1) .parse)) :
    console env l = (linesOf env (Place.run env l ⟨false, l, false⟩
        (List.replicate (l.length + 1) .parse)), some .ended) ∧
      (console env l).1.length ≤ l.length := by
  obtain ⟨h1, h2⟩ := console_copy (l.length + 1) _ _ (Follows.new env l) h (Nat.lt_succ_self _)
  exact ⟨h1, by unfold console; rw [h1]; exact h2⟩

/-- A statement after `COPY`, two `COPY` with data that is a statement, and an error. -/
def copyScript : List Nat :=
  runes "COPY t (a) FROM STDIN; x\nBEGIN;\nCOPY u (a)\nFROM STDIN;\n1;2;COMMIT"

theorem copyScript_fine : Place.Fine asciiParse copyScript ⟨false, copyScript, false⟩
    (List.replicate (copyScript.length + 1) .parse) :=
  Place.fine_of _ _ (by decide +kernel)

example : console asciiParse copyScript =
    ([.text (ascii "COPY t (a) FROM STDIN"), .text (ascii "BEGIN"),
      .text (ascii "COPY u (a) FROM STDIN"), .error, .error, .text (ascii "COMMIT")], some .ended) := by
  decide +kernel

/-- C72 fails: the panic of `Parse` (C64) ends the console, and what follows is not read. -/
theorem C72_null_crashes :
    console asciiParse (runes "BEGIN; USE NULL; COMMIT") =
      ([.text (ascii "BEGIN")], some .crashed) := by decide +kernel

/-- C72 fails in the same way for the escape. -/
theorem C72_escape_crashes :
    console asciiParse (runes "E'\\UFFFFFFFD'; COMMIT") = ([], some .crashed) := by decide +kernel

/-- C72 fails for `DEFAULT`: the statement is accepted, and printing it panics (C63), so that a note is
written instead of the statement. -/
theorem C72_default_note :
    console asciiParse (runes "INSERT INTO t VALUES (DEFAULT); COMMIT") =
      ([.note, .text (ascii "COMMIT")], some .ended) := by decide +kernel

/-- C72 fails for an empty statement: it ends with a `;`, and then another one is expected, so that
the statement after it is an error and is not written. -/
theorem C72_empty_takes_next :
    console asciiParse (runes "BEGIN; ; COMMIT; ROLLBACK") =
      ([.text (ascii "BEGIN"), .error, .text (ascii "ROLLBACK")], some .ended) := by decide +kernel

/-- Two semicolons are nil. -/
example : console asciiParse (runes "BEGIN; ; ; ROLLBACK") =
    ([.text (ascii "BEGIN"), .text (ascii "<nil>"), .text (ascii "ROLLBACK")], some .ended) := by
  decide +kernel

/-- Errors do not end the console. -/
example : console asciiParse (runes "BEGIN WORK; COMMIT") =
    ([.error, .text (ascii "COMMIT")], some .ended) := by decide +kernel

example : Token.reserved (-16) ∉ tokenize asciiParse.toScanEnv (runes "a; BEGIN") := by
  decide +kernel

/-- `BEGIN; CREATE SCHEMA s; COMMIT;` with white space, comments, and small letters. -/
def scriptText : List Nat := runes "begin; -- here\nCreate SCHEMA s ;\n COMMIT/* */;\n"

/-- The statements of the text. -/
def scriptStmts : List Stmt := [.begin, .createSchema ⟨0, sampleId "s"⟩, .commit]

/-- The names of the examples on engines, with the keywords. -/
def scriptParse : ParseEnv := { printEnv with
  id := fun b quoted =>
    match if quoted then none else keywords.lookup
        (b.map fun c => if 97 ≤ c.toNat ∧ c.toNat ≤ 122 then c - 32 else c) with
    | some id => id
    | none => sampleIdent b
  string := sampleName }

theorem scriptParse_knowsWords : KnowsWords scriptParse.toScanEnv :=
  ⟨by unfold KnowsKeywords; decide +kernel, by decide +kernel, by decide +kernel⟩

theorem scriptText_script :
    Script scriptParse scriptStmts (tokenize scriptParse.toScanEnv scriptText) := by
  have e : tokenize scriptParse.toScanEnv scriptText =
      tokenize scriptParse.toScanEnv (source (ascii "BEGIN")) ++ .endOfStatement ::
        (tokenize scriptParse.toScanEnv (source (ascii "CREATE SCHEMA s")) ++ .endOfStatement ::
          (tokenize scriptParse.toScanEnv (source (ascii "COMMIT")) ++ [.endOfStatement])) := by
    decide +kernel
  rw [e]
  refine .cons _ _ _ _ ⟨trivial, trivial, _, _, rfl, encodes_source (by decide), rfl⟩
    (.cons _ _ _ _ ⟨?_, trivial, ascii "CREATE SCHEMA s", _, by decide +kernel,
      encodes_source (by decide), rfl⟩
    (.cons _ _ _ _ ⟨trivial, trivial, _, _, rfl, encodes_source (by decide), rfl⟩ .nil))
  refine ⟨⟨by decide +kernel, by decide +kernel, [115], ?_, by simp [isSpace],
    encodes_ascii (by simp) (by decide +kernel)⟩, .inl rfl⟩
  exact ⟨115, [], rfl, .inl (by decide), nofun⟩

example : console scriptParse scriptText =
    ([.text (ascii "BEGIN"), .text (ascii "CREATE SCHEMA s"), .text (ascii "COMMIT")],
      some .ended) := by decide +kernel

/-! ### C73: the statements of a text -/

/-- On every text a script ends, at the end of the text or by a panic, and gives the replies, and has the
effects, of the statements that the calls of `Parse` return. -/
theorem C73_always_ends (env : SqlEnv) (penv : ParseEnv) (s : Server) (i : Nat) (l : List Nat) :
    let calls := (Parser.new penv l).run penv (List.replicate (l.length + 1) .parse)
    let replies := s.run env ((stmtsOf calls).map fun t => (i, t))
    (s.runText env penv i l = (replies.1, some .ended, replies.2) ∨
      s.runText env penv i l = (replies.1, some .crashed, replies.2)) ∧
      replies.1.length ≤ l.length := by
  obtain ⟨h1, h2⟩ := going_script (env := env) (i := i) (l.length + 1) _ _ s (Going.new penv l)
    (Nat.lt_succ_self _)
  obtain ⟨h3, h4⟩ := script_stmts (env := env) (penv := penv) (i := i) (l.length + 1)
    (Parser.new penv l) s
  dsimp only
  rw [← h3, ← h4]
  refine ⟨?_, h2⟩
  rcases h1 with h1 | h1
  · exact .inl (by rw [← h1]; rfl)
  · exact .inr (by rw [← h1]; rfl)

example : ((Server.initial sampleSql sampleDefaults).runText sampleSql scriptParse 0
    (runes "BEGIN; USE NULL; COMMIT")).1 = [some (.ok ())] ∧
    ((Server.initial sampleSql sampleDefaults).runText sampleSql scriptParse 0
    (runes "BEGIN; USE NULL; COMMIT")).2.1 = some .crashed := by decide +kernel

/-- A session that evaluates the statements of a text gives the replies, and has the effects, of the
statements that it spells. Missing: what is missing from C63, and `COPY`. -/
theorem C73_text_partial (env : SqlEnv) (penv : ParseEnv) (hw : KnowsWords penv.toScanEnv)
    (s : Server) (i : Nat) (ss : List Stmt) (l : List Nat) (h : Script penv ss (tokenize penv.toScanEnv l)) :
    s.runText env penv i l =
      ((s.run env (ss.map fun t => (i, some t))).1, some .ended,
        (s.run env (ss.map fun t => (i, some t))).2) := by
  obtain ⟨h1, h2⟩ := Reads.of_script hw h
  exact reads_script h1 i _ s h2

/-- The same for every text, not only of printed statements, and with `COPY`: the session evaluates the
statements that the calls of `Parse` should return by C67, and nothing for the errors. Missing: what is
missing from C67, and the texts that panic. -/
theorem C73_copy_partial (env : SqlEnv) (penv : ParseEnv) (s : Server) (i : Nat) (l : List Nat)
    (h : Place.Fine penv l ⟨false, l, false⟩ (List.replicate (l.length + 1) .parse)) :
    s.runText env penv i l =
      let stmts := stmtsOf (Place.run penv l ⟨false, l, false⟩ (List.replicate (l.length + 1) .parse))
      ((s.run env (stmts.map fun t => (i, t))).1, some .ended,
        (s.run env (stmts.map fun t => (i, t))).2) :=
  script_copy i (l.length + 1) _ _ s (Follows.new penv l) h (Nat.lt_succ_self _)

example : Place.Fine scriptParse (runes "BEGIN x; BEGIN; COMMIT") ⟨false, runes "BEGIN x; BEGIN; COMMIT", false⟩
    (List.replicate 23 .parse) := Place.fine_of _ _ (by decide +kernel)

example : ((Server.initial sampleSql sampleDefaults).runText sampleSql scriptParse 0
    (runes "BEGIN x; BEGIN; COMMIT")).1 = [some (.ok ()), some (.ok ())] := by decide +kernel

/-- On a new server the replies are what the statements mean for the catalog as sets of names.
Missing, besides: what is missing from C53. -/
theorem C73_effect_partial (env : SqlEnv) (hf : SystemFits env.toEngineEnv) (penv : ParseEnv)
    (hw : KnowsWords penv.toScanEnv) (defaults : List (Identifier × Identifier)) (i : Nat)
    (ss : List Stmt) (l : List Nat) (h : Script penv ss (tokenize penv.toScanEnv l))
    (hs : SmallHistory env (Clients.initial env defaults) (ss.map fun t => (i, t))) :
    ((Server.initial env defaults).runText env penv i l).1 =
      (Clients.run env (Clients.initial env defaults) (ss.map fun t => (i, t))).1 ∧
    ((Server.initial env defaults).runText env penv i l).2.1 = some .ended := by
  rw [C73_text_partial env penv hw _ i ss l h]
  have := C53_histories_partial env hf defaults _ hs
  rw [List.map_map] at this
  exact ⟨this, rfl⟩

example : SmallHistory sampleSql (Clients.initial sampleSql sampleDefaults)
    (scriptStmts.map fun t => (0, t)) := by decide +kernel

example : ((Server.initial sampleSql sampleDefaults).runText sampleSql scriptParse 0
    (runes "BEGIN; CREATE SCHEMA s; COMMIT; CREATE SCHEMA s; COMMIT")).1 =
    [some (.ok ()), some (.ok ()), some (.ok ()), some (.err .other), some (.err .other)] := by
  decide +kernel

end Maho
