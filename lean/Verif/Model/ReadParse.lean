import Verif.Model.ReadScan
import Verif.Model.RingParse
/-
Model of parser/parser.go with the input that COPY takes away from the scanner, after
Model/RingParse.lean.
-/
namespace Maho

/-- The tokens that the scanner returns from here on, with fuel. -/
def Scanner.tokens (env : ScanEnv) : Nat → Scanner → List Token
  | 0, _ => []
  | n + 1, s =>
    let (t, _, s) := s.scan env false ⟨0, 0⟩
    if t = .eof then [] else t :: Scanner.tokens env n s

/-- What the parser reads from: the tokens that the scanner has returned before the input was last
moved, of which there are `base`, and the scanner then. `tokens` are these tokens and those that
the scanner returns from there on. -/
structure Input where
  tokens : List Token
  base : Nat
  scanner : Scanner

/-- The scanner has returned `n` tokens. -/
def Input.at (env : ScanEnv) (old : List Token) (n : Nat) (s : Scanner) : Input :=
  ⟨(List.range n).map (RP.stream old) ++ s.tokens env s.fuel, n, s⟩

/-- The scanner now. -/
def Input.now (env : ScanEnv) (i : Input) (r : Ring) : Scanner :=
  Scanner.after env false (fun _ => ⟨0, 0⟩) i.scanner (r.scanned - i.base)

/-- parser/parser.go:247-251 of `parseStmt`: the keyword of a statement. -/
def RP.keyword : RP (Option Identifier) := do
  let empty ← RP.maybeToken .endOfStatement
  if empty then pure none else some <$> RP.expectReserved stmtKeywords

/-- parser/parser.go:246-367 `parseStmt`, with 1393-1395: after COPY the input is moved to the next
line. The result has the number of that line. -/
def Input.stmt (env : ParseEnv) (i : Input) (r : Ring) : RRes (Option Stmt) × Input × Option Nat :=
  match RP.keyword i.tokens r with
  | .ok none r2 => (.ok none r2, i, none)
  | .ok (some id) r2 =>
    if id = Kw.COPY then
      match RP.parseCopy i.tokens r2 with
      | .ok s r3 =>
        let sc := (i.now env.toScanEnv r3).runeReader
        (.ok (some s) r3, .at env.toScanEnv i.tokens r3.scanned sc, some sc.line)
      | .fail ended r3 => (.fail ended r3, i, none)
      | .panic => (.panic, i, none)
      | .stuck => (.stuck, i, none)
    else ((RP.parsers env (RP.left i.tokens r + 1)).afterKeyword env id i.tokens r2, i, none)
  | .fail ended r2 => (.fail ended r2, i, none)
  | .panic => (.panic, i, none)
  | .stuck => (.stuck, i, none)

/-- A call of `Parse`, or of `ReadRune` of the field `From` of the last COPY statement. -/
inductive ReaderCall where
  | parse
  | read

/-- What such a call returns: for `Parse` also the field `FromLine` of a COPY statement. -/
inductive ReaderResult where
  | parsed (p : Parsed) (line : Option Nat)
  | rune (r : Option Nat)

/-- A parser: the field `failed`, the ring of tokens, and the input. -/
structure Parser where
  failed : Bool
  ring : Ring
  input : Input

namespace Parser

/-- parser/parser.go:27-31 `NewParser`. -/
def new (env : ParseEnv) (l : List Nat) : Parser :=
  ⟨false, Ring.new, .at env.toScanEnv [] 0 (Scanner.init l)⟩

/-- parser/parser.go:56-69: the last part of `Parse`. The results are what `Parse` returns, the field
`FromLine` of a COPY statement, and the parser. -/
def recover (env : ParseEnv) (i : Input) (r : Ring) : Parsed × Option Nat × Parser :=
  match i.stmt env r with
  | (.ok s r, i, line) =>
    match RP.expectEndOfStatement i.tokens r with
    | .ok _ r => (.stmt s, line, ⟨false, r, i⟩)
    | .fail ended r => (.error, none, ⟨!ended, r, i⟩)
    | .panic => (.panic, none, ⟨false, r, i⟩)
    | .stuck => (.stuck, none, ⟨false, r, i⟩)
  | (.fail ended r, i, _) => (.error, none, ⟨!ended, r, i⟩)
  | (.panic, i, _) => (.panic, none, ⟨false, r, i⟩)
  | (.stuck, i, _) => (.stuck, none, ⟨false, r, i⟩)

/-- parser/parser.go:33-70 `Parse`. -/
def parse (env : ParseEnv) (p : Parser) : Parsed × Option Nat × Parser :=
  match RP.scanRune p.input.tokens p.ring with
  | (none, r) => (.error, none, { p with ring := r })
  | (some .eof, r) => (.eof, none, { p with ring := r })
  | (some _, r) =>
    match r.unscan with
    | .ok r =>
      if p.failed then
        match RP.skipStatement p.input.tokens (RP.left p.input.tokens r + 1) r with
        | (some a, r) => (a, none, ⟨true, r, p.input⟩)
        | (none, r) => recover env p.input r
      else recover env p.input r
    | _ => (.panic, none, { p with ring := r })

/-- What the field `From` of a COPY statement reads: the runes that the scanner has not read. -/
def data (env : ParseEnv) (p : Parser) : List Nat := (p.input.now env.toScanEnv p.ring).runes

/-- A call of `ReadRune` of the field `From`. -/
def readFrom (env : ParseEnv) (p : Parser) : Option Nat × Parser :=
  let (r, s) := (p.input.now env.toScanEnv p.ring).readFrom
  (r, { p with input := .at env.toScanEnv p.input.tokens p.ring.scanned s })

/-- The results of calls one after the other. -/
def run (env : ParseEnv) : Parser → List ReaderCall → List ReaderResult
  | _, [] => []
  | q, .parse :: calls =>
    let (p, line, q) := q.parse env
    .parsed p line :: run env q calls
  | q, .read :: calls =>
    let (r, q) := q.readFrom env
    .rune r :: run env q calls

end Parser
end Maho
