import Verif.Lemmas.ScanBufferSmall
import Verif.Props.Console
/-
C86: the bytes that a statement holds (parser/scanner/scanner.go:471 and 573, parser/parser.go:1190).
-/
namespace Maho
open Spec Lit

/-- The parser does not look into bytes tokens: with other bytes in them it takes the same tokens, fails
or panics for the same reason, and returns the same statement with the other bytes in its literals. Only
the texts of SET, USE and the options of CREATE DATABASE are made from the bytes. -/
theorem C86_blind (env : ParseEnv) (f : Bytes → Bytes) (failed : Bool) (ts : List Token) :
    ParsedWith f (parse env failed (ts.map (tokenWith f))).1 (parse env failed ts).1 ∧
      (parse env failed (ts.map (tokenWith f))).2.1 = (parse env failed ts).2.1 ∧
      (parse env failed (ts.map (tokenWith f))).2.2 =
        (parse env failed ts).2.2.map (tokenWith f) :=
  parse_with env failed ts

/-- C86 (partial): a call of `Parse` returns the statement of its tokens, if none of the tokens that it
takes writes other bytes over those of an earlier bytes token of the statement. The statement stays the
same as long as no later token does. The property is claimed for all texts: see `C86_not_kept` and
`C86_not_kept_later`. -/
theorem C86_kept_partial (penv : ParseEnv) (benv : BufferEnv) (failed : Bool) (l : List Nat) (start : Nat) :
    (Undisturbed (scans penv.toScanEnv l) start
        (scansAfter penv failed (scans penv.toScanEnv l) start) →
      parsedHeld penv benv failed (scans penv.toScanEnv l) start =
        (parse penv failed ((tokenize penv.toScanEnv l).drop start)).1) ∧
    ∀ upto, Undisturbed (scans penv.toScanEnv l) start upto →
      parsedAfter penv benv failed (scans penv.toScanEnv l) start upto =
        (parse penv failed ((tokenize penv.toScanEnv l).drop start)).1 := by
  have key : ∀ upto, Undisturbed (scans penv.toScanEnv l) start upto →
      parsedAfter penv benv failed (scans penv.toScanEnv l) start upto =
        (parse penv failed ((tokenize penv.toScanEnv l).drop start)).1 := by
    intro upto h
    rw [parsedAfter_kept penv benv failed _ start upto (scans_wrote penv.toScanEnv l) h,
      List.map_drop, scans_tokens]
  exact ⟨key _, key⟩

/-- While no token is longer than 61 bytes, the value of a bytes token is at any time what it was, with
the bytes that the later tokens wrote over it, in their order. -/
theorem C86_contents (benv : BufferEnv) (cs : List Scan) (hs : ∀ c ∈ cs, c.written.length ≤ 61)
    (i upto : Nat) (c : Scan) (hi : cs[i]? = some c) (hlt : i < upto) :
    benv.held cs i upto = ((cs.take upto).drop (i + 1)).foldl
      (fun v d => d.written.take v.length ++ v.drop d.written.length) c.written :=
  held_small benv hs hi hlt

/-- The bytes in the literals of an expression. -/
def bytes86 : Expr → List Bytes
  | .lit (some (.bytes b)) => [b]
  | .binary _ l r => bytes86 l ++ bytes86 r
  | _ => []

/-- The bytes in the literals of VALUES, INSERT, and the results and the condition of SELECT. -/
def parsed86 : Parsed → Option (List Bytes)
  | .stmt (some (.query (.values rows))) => some (rows.flatten.flatMap bytes86)
  | .stmt (some (.insert _ _ rows)) =>
    some (rows.flatten.flatMap fun e => match e with | some e => bytes86 e | none => [])
  | .stmt (some (.query (.select rs _ cond _ _ _))) =>
    some (rs.flatMap (fun r => match r with | .expr e _ => bytes86 e | _ => []) ++
      (match cond with | some e => bytes86 e | none => []))
  | .stmt (some (.set _ v)) => some [v]
  | _ => none

/-- The scans of a text. -/
def scans86 (s : String) : List Scan := scans scriptParse.toScanEnv (runes s)

/-- The bytes of the first statement of a text: as its tokens are, when `Parse` returns, and when the
whole text has been scanned. -/
def held86 (benv : BufferEnv) (s : String) :
    Option (List Bytes) × Option (List Bytes) × Option (List Bytes) :=
  (parsed86 (parse scriptParse false ((scans86 s).map (·.token))).1,
    parsed86 (parsedHeld scriptParse benv false (scans86 s) 0),
    parsed86 (parsedAfter scriptParse benv false (scans86 s) 0 (scans86 s).length))

theorem held86_still (benv : BufferEnv) (s : String)
    (h : ((scans86 s).all fun c => c.written.length ≤ 61) = true) :
    held86 benv s = held86 .still s := by
  have hs : Small (scans86 s) := fun c hc => by
    simpa using List.all_eq_true.1 h c hc
  unfold held86 parsedHeld
  rw [parsedAfter_small scriptParse benv .still false hs,
    parsedAfter_small scriptParse benv .still false hs]

example : Undisturbed (scans86 "INSERT INTO t VALUES (x'0102');") 0
      (scansAfter scriptParse false (scans86 "INSERT INTO t VALUES (x'0102');") 0) ∧
    Undisturbed (scans86 "VALUES (x'0102', x'010203')") 0 9 ∧
    held86 .still "VALUES (x'0102', x'010203')" =
      (some [[1, 2], [1, 2, 3]], some [[1, 2], [1, 2, 3]], some [[1, 2], [1, 2, 3]]) ∧
    held86 .still "SET a = x'0102'" = (some [ascii "'\\x0102'"], some [ascii "'\\x0102'"], some [ascii "'\\x0102'"]) :=
  ⟨undisturbed_sound (by decide +kernel), undisturbed_sound (by decide +kernel), by decide +kernel,
    by decide +kernel⟩

example : BufferEnv.still.held (scans86 "x'010203' 'ab'") 0 2 = ascii "ab" ++ [3] := by decide +kernel

/-- C86 fails: a second literal, the name after AS or a string overwrites the bytes of the literal before
it, however the buffer moves. -/
theorem C86_not_kept (benv : BufferEnv) :
    (held86 benv "VALUES (x'0102', x'0304')").1 = some [[1, 2], [3, 4]] ∧
    (held86 benv "VALUES (x'0102', x'0304')").2.1 = some [[3, 4], [3, 4]] ∧
    (held86 benv "INSERT INTO t VALUES (x'01', 7)").1 = some [[1]] ∧
    (held86 benv "INSERT INTO t VALUES (x'01', 7)").2.1 = some [ascii "7"] ∧
    (held86 benv "SELECT x'0102' AS c").1 = some [[1, 2]] ∧
    (held86 benv "SELECT x'0102' AS c").2.1 = some [ascii "cS"] ∧
    (held86 benv "SELECT * FROM t WHERE x'01' < x'02'").1 = some [[1], [2]] ∧
    (held86 benv "SELECT * FROM t WHERE x'01' < x'02'").2.1 = some [[2], [2]] := by
  rw [held86_still benv _ (by decide +kernel), held86_still benv _ (by decide +kernel),
    held86_still benv _ (by decide +kernel), held86_still benv _ (by decide +kernel)]
  decide +kernel

/-- C86 fails: the statement that `Parse` has returned changes when the next one is scanned. -/
theorem C86_not_kept_later (benv : BufferEnv) :
    held86 benv "INSERT INTO t VALUES (x'0102'); COMMIT" =
      (some [[1, 2]], some [[1, 2]], some [ascii "CO"]) ∧
    held86 benv "VALUES (b'abc'); VALUES (x'ff')" =
      (some [ascii "abc"], some [ascii "abc"], some [0xff :: ascii "AL"]) := by
  rw [held86_still benv _ (by decide +kernel), held86_still benv _ (by decide +kernel)]
  decide +kernel

end Maho
