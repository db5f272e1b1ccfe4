import Verif.Lemmas.CopyInput
import Verif.Props.Parse
/-
C67: COPY and the data that follows it.
-/
namespace Maho
open Maho.Spec

/-- Calls of `Parse`, and of `ReadRune` of the field `From` of COPY statements, one after the other,
return what they should for every text: the data of a COPY statement is what follows the line of its
`;`, `FromLine` is the number of the next line, and `Parse` goes on after the data that has been
read. Missing: COPY statements that are rejected or do not end with a `;`, and those with a comment
between the delimiter and the `;`. -/
theorem C67_copy_partial (env : ParseEnv) (L : List Nat) (calls : List ReaderCall)
    (h : Place.Fine env L ⟨false, L, false⟩ calls) :
    (Parser.new env L).run env calls = Place.run env L ⟨false, L, false⟩ calls :=
  (Follows.new env L).run calls h

/-- The data of the COPY statement that a text begins with: it follows the line of the `;`, and is
empty if that line does not end. -/
theorem C67_data_partial (env : ParseEnv) (L : List Nat)
    (h : Place.Plain env ⟨false, L, false⟩) (hc : Place.isCopy env ⟨false, L, false⟩) :
    ∃ statement line data front s, 10 ∉ line ∧ L = front ++ data ∧
      (front = statement ++ line ++ [10] ∨ front = statement ++ line ∧ data = []) ∧
      L = statement ++ restAfter env.toScanEnv false L (Place.taken env ⟨false, L, false⟩) ∧
      (Parser.new env L).run env (.parse :: List.replicate (data.length + 1) .read) =
        .parsed (.stmt s) (some (lineOf front)) ::
          (data.map (fun r => .rune (some r)) ++ [.rune none]) := by
  obtain ⟨s, hs⟩ := h.accepted hc
  dsimp only at hs
  have hsuf := restAfter_suffix env.toScanEnv L (Place.taken env ⟨false, L, false⟩)
  obtain ⟨statement, hL⟩ := hsuf
  have hparse : Place.parse env L ⟨false, L, false⟩ = (.parsed (.stmt s)
      (some (lineOf (L.take (L.length - (nextLine (restAfter env.toScanEnv false L
        (Place.taken env ⟨false, L, false⟩))).length)))),
      ⟨false, nextLine (restAfter env.toScanEnv false L (Place.taken env ⟨false, L, false⟩)), true⟩) := by
    unfold Place.parse
    dsimp only
    rw [if_pos hc, hs]
    have : (parse env false (Place.tokens env ⟨false, L, false⟩)).2.1 = false := by
      obtain ⟨tl, htl⟩ : ∃ tl, Place.tokens env ⟨false, L, false⟩ = .reserved Kw.COPY :: tl := by
        have hh : (Place.tokens env ⟨false, L, false⟩).head? = some (.reserved Kw.COPY) := hc
        cases hx : Place.tokens env ⟨false, L, false⟩ with
        | nil => rw [hx] at hh; cases hh
        | cons t tl =>
          rw [hx] at hh
          cases hh
          exact ⟨tl, rfl⟩
      rw [htl] at hs ⊢
      obtain ⟨t, rest, left, -, -, -, e⟩ := recover_copy hs
      show (parseRecover env (.reserved Kw.COPY :: tl)).2.1 = false
      rw [e]
    rw [this]
  generalize hr : restAfter env.toScanEnv false L (Place.taken env ⟨false, L, false⟩) = rest at *
  have hsplit : ∃ line front, 10 ∉ line ∧ L = front ++ nextLine rest ∧
      (front = statement ++ line ++ [10] ∨ front = statement ++ line ∧ nextLine rest = []) := by
    by_cases hn : 10 ∈ rest
    · obtain ⟨line, h1, h2⟩ := Scanner.nextLine_split hn
      refine ⟨line, statement ++ line ++ [10], h1, ?_, .inl rfl⟩
      conv => lhs; rw [← hL, h2]
      simp
    · refine ⟨rest, statement ++ rest, hn, ?_, .inr ⟨rfl, Scanner.nextLine_none hn⟩⟩
      rw [Scanner.nextLine_none hn, List.append_nil, hL]
  obtain ⟨line, front, h1, h2, h3⟩ := hsplit
  refine ⟨statement, line, nextLine rest, front, s, h1, h2, h3, hL.symm, ?_⟩
  rw [C67_copy_partial env L (.parse :: _) ⟨h, by rw [hparse]; exact fine_reads env L _ _⟩]
  show (Place.parse env L ⟨false, L, false⟩).1 ::
    Place.run env L (Place.parse env L ⟨false, L, false⟩).2 _ = _
  rw [hparse, run_reads]
  have : L.take (L.length - (nextLine rest).length) = front := take_front h2
  rw [this]

/-- The first call of `Parse` for a text. -/
def copyText (s : String) : Parsed × Option Nat × Parser :=
  (Parser.new asciiParse (runes s)).parse asciiParse

/-- What the tokens of a text are parsed to. -/
def copyTokens (s : String) : Parsed := (parse asciiParse false (tokenize asciiParse.toScanEnv (runes s))).1

-- A COPY statement over two lines, with a delimiter and a comment after the `;`. One character of the
-- data is read, and the next statement begins after it.
example : (copyText "COPY t\nFROM STDIN DELIMITER ',' ; -- x\n1,2\n3,4\n").1.isStmt = true ∧
    (copyText "COPY t\nFROM STDIN DELIMITER ',' ; -- x\n1,2\n3,4\n").2.1 = some 3 ∧
    (copyText "COPY t\nFROM STDIN DELIMITER ',' ; -- x\n1,2\n3,4\n").2.2.data asciiParse =
      runes "1,2\n3,4\n" ∧
    ((((copyText "COPY t FROM STDIN;\n1BEGIN;").2.2.readFrom asciiParse).2.parse asciiParse).1.isStmt =
      true) := by decide +kernel

-- A line that does not end.
example : (copyText "COPY t FROM STDIN; -- x").1.isStmt = true ∧
    (copyText "COPY t FROM STDIN; -- x").2.1 = some 1 ∧
    (copyText "COPY t FROM STDIN; -- x").2.2.data asciiParse = [] := by decide +kernel

/-- The conditions of the theorems hold for this text. -/
theorem plain_sample : Place.Plain asciiParse ⟨false, runes "COPY t FROM STDIN;\n1\t2\n", false⟩ ∧
    Place.isCopy asciiParse ⟨false, runes "COPY t FROM STDIN;\n1\t2\n", false⟩ := by
  refine ⟨⟨by decide +kernel, ?_, fun _ => ?_, fun _ => by decide +kernel,
    fun _ => ?_⟩, by decide +kernel⟩
  · have h : (Place.statement asciiParse ⟨false, runes "COPY t FROM STDIN;\n1\t2\n", false⟩).head? =
        some (.reserved (-16)) := by decide +kernel
    rintro (⟨rest, e⟩ | ⟨v, t, rest, e⟩) <;> rw [e] at h <;> cases h
  · have h : (parse asciiParse false (Place.tokens asciiParse
        ⟨false, runes "COPY t FROM STDIN;\n1\t2\n", false⟩)).1.isStmt = true := by decide +kernel
    revert h
    show Parsed.isStmt (parse asciiParse false (Place.tokens asciiParse
        ⟨false, runes "COPY t FROM STDIN;\n1\t2\n", false⟩)).1 = true → _
    dsimp only
    cases (parse asciiParse false (Place.tokens asciiParse
        ⟨false, runes "COPY t FROM STDIN;\n1\t2\n", false⟩)).1 with
    | stmt s => exact fun _ => ⟨s, rfl⟩
    | _ => intro h; cases h
  · have h : (∀ b, tokenAt asciiParse.toScanEnv false (runes "COPY t FROM STDIN;\n1\t2\n")
        (Place.taken asciiParse ⟨false, runes "COPY t FROM STDIN;\n1\t2\n", false⟩ - 2) ≠ .string b) := by
      have : (match tokenAt asciiParse.toScanEnv false (runes "COPY t FROM STDIN;\n1\t2\n")
          (Place.taken asciiParse ⟨false, runes "COPY t FROM STDIN;\n1\t2\n", false⟩ - 2) with
          | .string _ => true
          | _ => false) = false := by decide +kernel
      intro b e
      rw [e] at this
      cases this
    exact fun b e => absurd e (h b)

example : Place.Fine asciiParse (runes "COPY t FROM STDIN;\n1\t2\n")
    ⟨false, runes "COPY t FROM STDIN;\n1\t2\n", false⟩ [.parse, .read, .read] := by
  refine ⟨plain_sample.1, ?_, ?_, trivial⟩ <;> decide +kernel

/-- C67 fails for a comment between the delimiter and the `;`: it is taken for a part of the data, and
the statement is rejected. -/
theorem C67_comment :
    (copyTokens "COPY t FROM STDIN DELIMITER ',' -- x\n;\n1,2\n").isStmt = true ∧
    (copyText "COPY t FROM STDIN DELIMITER ',' -- x\n;\n1,2\n").1.isError = true ∧
    (copyTokens "COPY t FROM STDIN DELIMITER ',' /* x */;\n1,2\n").isStmt = true ∧
    (copyText "COPY t FROM STDIN DELIMITER ',' /* x */;\n1,2\n").1.isError = true := by decide +kernel

/-- It also fails the other way round: the rest of the line after the delimiter is dropped, so that a
statement is accepted that has something else there, and the data begins in the wrong line. -/
theorem C67_garbage :
    (copyTokens "COPY t FROM STDIN DELIMITER ',' -x\n-y\n; z\n1,2\n").isError = true ∧
    (copyText "COPY t FROM STDIN DELIMITER ',' -x\n-y\n; z\n1,2\n").1.isStmt = true ∧
    (copyText "COPY t FROM STDIN DELIMITER ',' -x\n-y\n; z\n1,2\n").2.1 = some 2 ∧
    (copyText "COPY t FROM STDIN DELIMITER ',' -x\n-y\n; z\n1,2\n").2.2.data asciiParse =
      runes " z\n1,2\n" := by decide +kernel

/-- Without the `;` the scanner reads on after the line of the statement: what can be skipped there is
missing in the data. -/
theorem C67_no_semicolon :
    (copyTokens "COPY t FROM STDIN\n--\n").isStmt = true ∧
    (copyText "COPY t FROM STDIN\n--\n").1.isStmt = true ∧
    (copyText "COPY t FROM STDIN\n--\n").2.2.data asciiParse = [] ∧
    (copyText "COPY t FROM STDIN;\n--\n").2.2.data asciiParse = runes "--\n" := by decide +kernel

/-- Whether `Parse` returned BEGIN. -/
def Parsed.isBegin : Parsed → Bool
  | .stmt (some .begin) => true
  | _ => false

/-- Whether `Parse` returned COMMIT. -/
def Parsed.isCommit : Parsed → Bool
  | .stmt (some .commit) => true
  | _ => false

/-- After a COPY statement that is rejected because of what follows STDIN, the rest of the line is lost
with its `;`, and so is the next statement. -/
theorem C67_rejected :
    (copyText "COPY t FROM STDIN x ;\nBEGIN;\nCOMMIT;").1.isError = true ∧
    ((copyText "COPY t FROM STDIN x ;\nBEGIN;\nCOMMIT;").2.2.parse asciiParse).1.isCommit = true ∧
    (parsedAt asciiParse (tokenize asciiParse.toScanEnv
      (runes "COPY t FROM STDIN x ;\nBEGIN;\nCOMMIT;")) 1).isBegin = true := by decide +kernel

end Maho
