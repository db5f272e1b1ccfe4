import Verif.Model.ReadParse
import Verif.Model.Print
import Verif.Model.Session
/-
The console, which prints the statements it reads, and scripts, whose statements are evaluated.
-/
namespace Maho

/-- What the console writes for one call of `Parse`. `fmt.Println` calls `String` of a statement,
and writes a note if that panics; it writes `<nil>` for a nil statement. The texts of errors are not
modelled. -/
inductive ConsoleLine where
  | text (b : Bytes)
  | note
  | error
deriving DecidableEq

/-- main.go:41 `fmt.Println(stmt)`. -/
def writeStmt (env : ParseEnv) : Option Stmt → ConsoleLine
  | none => .text (ascii "<nil>")
  | some s =>
    match s.print env with
    | .ok b => .text b
    | _ => .note

/-- How the console ends: at the end of the input, or by a panic of `Parse`. -/
inductive ConsoleEnd where
  | ended
  | crashed
deriving DecidableEq

/-- main.go:31-42: the loop, for at most `n` calls of `Parse`; `none`: it goes on. -/
def Parser.console (env : ParseEnv) : Nat → Parser → List ConsoleLine × Option ConsoleEnd
  | 0, _ => ([], none)
  | n + 1, p =>
    match p.parse env with
    | (.eof, _, _) => ([], some .ended)
    | (.error, _, p) =>
      let (ws, e) := p.console env n
      (.error :: ws, e)
    | (.stmt s, _, p) =>
      let (ws, e) := p.console env n
      (writeStmt env s :: ws, e)
    | (.panic, _, _) => ([], some .crashed)
    | (.stuck, _, _) => ([], none)

/-- main.go:29-43 `main` on a text, for at most as many calls as there are runes and one more. -/
def console (env : ParseEnv) (l : List Nat) : List ConsoleLine × Option ConsoleEnd :=
  (Parser.new env l).console env (l.length + 1)

/-- A script: the loop of main.go:31-42 with `Session.Evaluate` (evaluate/session.go:51-106) in place
of `fmt.Println`, for session `i`. The replies, for at most `n` calls of `Parse`, how it ended, and
the server afterwards. -/
def Parser.script (env : SqlEnv) (penv : ParseEnv) (i : Nat) : Nat → Parser → Server →
    List (Option (Res Unit)) × Option ConsoleEnd × Server
  | 0, _, s => ([], none, s)
  | n + 1, p, s =>
    match p.parse penv with
    | (.eof, _, _) => ([], some .ended, s)
    | (.error, _, p) => p.script env penv i n s
    | (.stmt stmt, _, p) =>
      let (r, s) := s.step env i stmt
      let (rs, e, s) := p.script env penv i n s
      (r :: rs, e, s)
    | (.panic, _, _) => ([], some .crashed, s)
    | (.stuck, _, _) => ([], none, s)

/-- The script on a text. -/
def Server.runText (env : SqlEnv) (penv : ParseEnv) (s : Server) (i : Nat) (l : List Nat) :
    List (Option (Res Unit)) × Option ConsoleEnd × Server :=
  (Parser.new penv l).script env penv i (l.length + 1) s

end Maho
