import Verif.Model.RingParse
/-
Model of the messages of parser/parser.go about a token that was not expected: what they say was
expected, and what they say was found. The ring of the parser is modelled here with the field
`String` of the tokens, which keeps what an earlier token left there.
-/
namespace Maho

/-- What messages are made with besides the environment of the parser: `%q` of a string
(`strconv.Quote`) and the text of an error of the scanner. -/
structure MessageEnv extends ParseEnv where
  quote : Bytes → Bytes
  errorText : Bytes
  quote_inj : ∀ s t, quote s = quote t → s = t

/-- The text of a whole number of millionths. -/
def millionths (n : Nat) : Bytes :=
  natDigits (n / 1000000) ++ ascii "." ++ (natDigits (1000000 + n % 1000000)).drop 1

/-- The nearest whole number of millionths, ties to even. -/
def nearestMillionth (m : Nat) : Nat :=
  let n := F64.magScaled m * 1000000
  let q := n / F64.unit
  let r := n % F64.unit
  if F64.unit < 2 * r ∨ (F64.unit = 2 * r ∧ q % 2 = 1) then q + 1 else q

/-- `%f` of a float64 (Go standard library): six digits after the point. -/
def formatF (f : F64) : Bytes :=
  if F64.isNaN f then ascii "NaN"
  else if F64.isFinite f then
    (if F64.sign f then ascii "-" else []) ++ millionths (nearestMillionth (F64.mag f))
  else ascii (if F64.sign f then "-Inf" else "+Inf")

/-- parser/scanner/scanner.go:27-36 `ScanCtx`: the token, with what the scanner set for it, and the
field `String`, which other tokens leave as it is. -/
structure ScanCtx where
  token : Token
  string : Bytes

/-- parser/scanner/scanner.go:69-73 `Scan` into a `ScanCtx`: only `scanString` (462) sets the field
`String`. -/
def ScanCtx.scanned (c : ScanCtx) (t : Token) : ScanCtx :=
  ⟨t, match t with
    | .string s => s
    | _ => c.string⟩

/-- parser/token/token.go:7-26: the numbers of the tokens. -/
def Token.number : Token → Int
  | .eof => -1
  | .endOfStatement => -2
  | .error _ => -3
  | .identifier _ => -4
  | .reserved _ => -5
  | .string _ => -6
  | .bytes _ => -7
  | .integer _ => -8
  | .float _ => -9
  | .parameter _ => -10
  | .barBar => -11
  | .lessLess => -12
  | .lessEqual => -13
  | .lessGreater => -14
  | .greaterGreater => -15
  | .greaterEqual => -16
  | .equalEqual => -17
  | .bangEqual => -18
  | .rune r => r

/-- parser/token/token.go:51-60 `operators`. -/
def operatorTexts : List (Int × String) :=
  [(-11, "||"), (-12, "<<"), (-13, "<="), (-14, "<>"), (-15, ">>"), (-16, ">="), (-17, "=="),
   (-18, "!=")]

/-- parser/token/token.go:74-82 `Format`. -/
def formatToken (r : Int) : Bytes :=
  if r > 0 then ascii "rune " ++ runeBytes r
  else
    match operatorTexts.lookup r with
    | some s => ascii s
    | none => ascii "token " ++ formatInt r

/-- parser/parser.go:112-135 `got`. For a token with a nil error a nil pointer is used. -/
def got (env : MessageEnv) (c : ScanCtx) : Res Bytes :=
  match c.token with
  | .eof => .ok (ascii "end of file")
  | .endOfStatement => .ok (ascii "end of statement (;)")
  | .error isNil => if isNil then .panic else .ok (ascii "error " ++ env.errorText)
  | .identifier id => .ok (ascii "identifier " ++ env.string id)
  | .reserved id => .ok (ascii "reserved identifier " ++ env.string id)
  | .string _ => .ok (ascii "string " ++ env.quote c.string)
  | .bytes _ => .ok (ascii "bytes " ++ c.string)
  | .integer i => .ok (ascii "integer " ++ formatInt i.toInt)
  | .float f => .ok (ascii "float " ++ formatF f)
  | t => .ok (formatToken t.number)

/-- parser/parser.go:147-158 and 205-215: the loops that list what was expected. The index of the
first name is `i`, and `n` is the index of the last one. -/
def listNames (n : Nat) : Nat → List Bytes → Bytes
  | _, [] => []
  | i, name :: names =>
    (if i = n then ascii ", or " else if i > 0 then ascii ", " else []) ++ name ++
      listNames n (i + 1) names

/-- parser/parser.go:145-159 and 202-216: what was expected. -/
def expectedNames : List Bytes → Bytes
  | [name] => name
  | names => listNames (names.length - 1) 0 names

/-- What a method returns after it has read the token in the `ScanCtx`: a result, or `p.error` with
a message. -/
abbrev Expected (α : Type) := Res (Except Bytes α)

/-- `p.error` with what was expected and `got`. -/
def refuse {α : Type} (env : MessageEnv) (c : ScanCtx) (expected : Bytes) : Expected α :=
  match got env c with
  | .ok s => .ok (.error (expected ++ s))
  | .err e => .err e
  | .panic => .panic

/-- parser/parser.go:137-163 `expectReserved`. -/
def reservedOf (env : MessageEnv) (ids : List Identifier) (c : ScanCtx) : Expected Identifier :=
  let refused := refuse env c
    (ascii "expected keyword " ++ expectedNames (ids.map env.string) ++ ascii "; got ")
  match c.token with
  | .reserved id => if id ∈ ids then .ok (.ok id) else refused
  | _ => refused

/-- parser/parser.go:179-185 `expectIdentifier`. -/
def identifierOf (env : MessageEnv) (msg : Bytes) (c : ScanCtx) : Expected Identifier :=
  match c.token with
  | .identifier id => .ok (.ok id)
  | _ => refuse env c (msg ++ ascii ", got ")

/-- parser/parser.go:196-220 `expectTokens`. -/
def tokenOf (env : MessageEnv) (tokens : List Token) (c : ScanCtx) : Expected Token :=
  if c.token ∈ tokens then .ok (.ok c.token)
  else refuse env c (ascii "expected " ++
    expectedNames (tokens.map fun t => formatToken t.number) ++ ascii ", got ")

/-- parser/parser.go:230-237 `expectInteger`. -/
def integerOf (env : MessageEnv) (min max : Int) (c : ScanCtx) : Expected (BitVec 64) :=
  let refused := refuse env c (ascii "expected a number between " ++ formatInt min ++
    ascii " and " ++ formatInt max ++ ascii " inclusive, got ")
  match c.token with
  | .integer i => if i.toInt < min ∨ i.toInt > max then refused else .ok (.ok i)
  | _ => refused

/-- parser/parser.go:239-244 `expectEndOfStatement`. -/
def endOf (env : MessageEnv) (c : ScanCtx) : Expected Unit :=
  if c.token = .eof ∨ c.token = .endOfStatement then .ok (.ok ())
  else refuse env c (ascii "expected the end of the statement, got ")

/-- parser/parser.go:15-26: the ring of the parser with the whole `ScanCtx`, see `Ring`. -/
structure CtxRing where
  lookBack : Nat → ScanCtx
  current : Nat
  unscanned : Nat
  scanned : Nat

/-- parser/parser.go:27-31 `NewParser`. -/
def CtxRing.new : CtxRing := ⟨fun _ => ⟨.rune 0, []⟩, 0, 0, 0⟩

/-- parser/parser.go:76-89 `scanRune`. -/
def CtxRing.scan (stream : Nat → Token) (r : CtxRing) : ScanCtx × CtxRing :=
  let c := (r.current + 1) % 3
  if r.unscanned > 0 then (r.lookBack c, { r with current := c, unscanned := r.unscanned - 1 })
  else
    let ctx := (r.lookBack c).scanned (stream r.scanned)
    (ctx,
      { lookBack := fun i => if i = c then ctx else r.lookBack i
        current := c
        unscanned := 0
        scanned := r.scanned + 1 })

/-- parser/parser.go:99-110 `unscan`. -/
def CtxRing.unscan (r : CtxRing) : Res CtxRing :=
  if r.unscanned + 1 > 3 then .panic
  else
    .ok { r with
      unscanned := r.unscanned + 1
      current := if r.current = 0 then 2 else r.current - 1 }

/-- Calls one after the other: the ring after them. -/
def CtxRing.after (stream : Nat → Token) : CtxRing → List RingCall → Res CtxRing
  | r, [] => .ok r
  | r, .scan :: calls => (r.scan stream).2.after stream calls
  | r, .unscan :: calls =>
    match r.unscan with
    | .ok r => r.after stream calls
    | .err e => .err e
    | .panic => .panic

end Maho
