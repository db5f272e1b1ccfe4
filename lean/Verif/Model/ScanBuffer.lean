import Verif.Model.Literals

/-! The buffer of the scanner and the bytes literals that share it.

parser/scanner/scanner.go:69-70 `Scan` resets the buffer before every token; the letters of names,
the digits of numbers and the contents of strings are written into it, and lines 471 and 573 return
a slice of it as the value of a bytes token. parser/parser.go:1190 keeps that slice in the literal
(types.BytesValue is a []byte). So what a literal holds is what the array of the slice holds. -/

namespace Maho

/-- `bytes.Buffer` (Go standard library): the arrays that it has had so far, each with what was
written into it, and the one that it has now. `Reset` keeps the array. -/
structure ScanBuffer where
  arrays : List Bytes
  cur : Nat
deriving DecidableEq

/-- The buffer of a new scanner. -/
def ScanBuffer.new : ScanBuffer := ⟨[[]], 0⟩

/-- What is in an array. -/
def ScanBuffer.array (s : ScanBuffer) (a : Nat) : Bytes := s.arrays.getD a []

/-- An array after the byte `b` was written at `pos`, which is at most the end of what was written
before. -/
def overwrite (l : Bytes) (pos : Nat) (b : Byte) : Bytes := l.take pos ++ b :: l.drop (pos + 1)

/-- `bytes.Buffer.WriteByte` and `WriteRune` (Go standard library), one byte: `pos` bytes were
written since the last `Reset`. If the array has no room, the buffer moves: a new array gets the
bytes that were written since. -/
def ScanBuffer.writeByte (s : ScanBuffer) (move : Bool) (pos : Nat) (b : Byte) : ScanBuffer :=
  if move then ⟨s.arrays ++ [(s.array s.cur).take pos ++ [b]], s.arrays.length⟩
  else ⟨s.arrays.set s.cur (overwrite (s.array s.cur) pos b), s.cur⟩

/-- The writes of one token, from position `pos`; `move pos` is whether the buffer moves before the
byte at `pos` is written. -/
def ScanBuffer.write (s : ScanBuffer) (move : Nat → Bool) : Nat → Bytes → ScanBuffer
  | _, [] => s
  | pos, b :: bs => (s.writeByte (move pos) pos b).write move (pos + 1) bs

/-- When the buffer moves: at which byte of which token. `bytes.Buffer` asks for at most four bytes
at once, and its first array has 64, so it does not move before that. -/
structure BufferEnv where
  moves : Nat → Nat → Bool
  small : ∀ token pos, pos + 4 ≤ 64 → moves token pos = false

/-- A token, and what was written into the buffer while it was scanned. -/
structure Scan where
  token : Token
  written : Bytes
deriving DecidableEq

/-- The scans of an input, with fuel. -/
def scansFuel (env : ScanEnv) : Nat → List Nat → List Scan
  | 0, _ => []
  | n + 1, l =>
    let s := Maho.scan env false l
    if s.token = .eof then [] else ⟨s.token, s.buf⟩ :: scansFuel env n s.rest

/-- The scans of an input: as `tokenize`, with what was written. -/
def scans (env : ScanEnv) (l : List Nat) : List Scan := scansFuel env (l.length + 1) l

/-- parser/scanner/scanner.go:69-72 `Scan`, repeated: the buffer after these scans, the first of
which is number `k`. -/
def BufferEnv.after (env : BufferEnv) (s : ScanBuffer) : Nat → List Scan → ScanBuffer
  | _, [] => s
  | k, c :: cs => env.after (s.write (env.moves k) 0 c.written) (k + 1) cs

/-- parser/scanner/scanner.go:471, 573: what the value of bytes token `i` contains after `upto` scans:
the start of the array that the buffer had after the scan of the token. A token that has not been
scanned yet has no slice; then it is what will be in it. -/
def BufferEnv.held (env : BufferEnv) (cs : List Scan) (i upto : Nat) : Bytes :=
  if i < upto then
    ((env.after .new 0 (cs.take upto)).array (env.after .new 0 (cs.take (i + 1))).cur).take
      (cs.getD i ⟨.eof, []⟩).written.length
  else (cs.getD i ⟨.eof, []⟩).written

/-- The tokens, with the number of each bytes token in place of its value: that many bytes stand for
the slice of that token. -/
def numbered : Nat → List Scan → List Token
  | _, [] => []
  | i, c :: cs =>
    (match c.token with
      | .bytes _ => .bytes (List.replicate i 0)
      | t => t) :: numbered (i + 1) cs

/-- What a statement holds: `slices` is the statement that has numbers in place of the bytes of its
literals, and `contents` is what the slices contain. The texts in SET, USE and in the options of CREATE
DATABASE are copies: parseOptions (parser/parser.go:1880) copies the bytes of the current token, and
`SET` and `USE` (lines 1669-1678 and 1847-1856) want an expression that is nothing but a literal, so
that only the end of the statement has been scanned after it. They are taken from `copied`, the
statement as it would be with copies. -/
def heldBy (contents : Nat → Bytes) (copied slices : Stmt) : Stmt :=
  match copied with
  | .set var value => .set var value
  | .createDatabase d options => .createDatabase d options
  | _ => stmtWith (fun tag => contents tag.length) slices

/-- parser/parser.go:33-70 `Parse`, on the scans of an input from number `start` on: what is returned,
with the contents that the literals have after `upto` scans. -/
def parsedAfter (penv : ParseEnv) (benv : BufferEnv) (failed : Bool) (cs : List Scan)
    (start upto : Nat) : Parsed :=
  match (parse penv failed ((cs.drop start).map (·.token))).1,
      (parse penv failed ((numbered 0 cs).drop start)).1 with
  | .stmt (some copied), .stmt (some slices) =>
    .stmt (some (heldBy (fun i => benv.held cs i upto) copied slices))
  | .stmt none, _ => .stmt none
  | .eof, _ => .eof
  | .error, _ => .error
  | .panic, _ => .panic
  | _, _ => .stuck

/-- How many scans there have been when `Parse` returns: no token that has been scanned is left
over after a statement. -/
def scansAfter (penv : ParseEnv) (failed : Bool) (cs : List Scan) (start : Nat) : Nat :=
  cs.length - (parse penv failed ((cs.drop start).map (·.token))).2.2.length

/-- parser/parser.go:33-70 `Parse`, on the scans of an input from number `start` on: what it returns. -/
def parsedHeld (penv : ParseEnv) (benv : BufferEnv) (failed : Bool) (cs : List Scan) (start : Nat) :
    Parsed :=
  parsedAfter penv benv failed cs start (scansAfter penv failed cs start)

end Maho
