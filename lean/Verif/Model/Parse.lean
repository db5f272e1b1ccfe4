import Verif.Model.Token
import Verif.Model.Sql
/-
Model of parser/parser.go.

The parser reads tokens from a list. An empty list is the end of the input: the scanner returns
token.EOF forever. The list of an input is `tokenize`; the reader does not fail, and a `ScanCtx` is
new for every token. `unscan` puts the token it is given back in front of the list (`Ring` and
Props/Parse.lean show that the ring of three tokens does the same); token.EOF need not be put back.
Error texts and positions are left out. The stack of Go is not limited here. `COPY` is parsed, but
what it does to the scanner is not modelled here but in Model/ReadParse.lean: no input is left in its
reader, and the tokens after it are those that follow it in the list.
-/
namespace Maho

/-- What the parser takes from elsewhere: `Identifier.String`, the formats of floating point
numbers (`%v` and `'g'`) and what the scanner takes. -/
structure ParseEnv extends ScanEnv where
  string : Identifier → Bytes
  formatFloat : F64 → Bytes
  formatFloatG : F64 → Bytes

/-- What a method of the parser does: return, `p.error` (a panic that `Parse` recovers from;
`ended` tells whether the current token is then the end of the statement), a panic that `Parse`
does not recover from, or run out of fuel. -/
inductive PRes (α : Type) where
  | ok (a : α) (rest : List Token)
  | fail (ended : Bool) (rest : List Token)
  | panic
  | stuck

/-- A method of the parser. -/
def P (α : Type) := List Token → PRes α

namespace P

def bind {α β : Type} (m : P α) (f : α → P β) : P β := fun ts =>
  match m ts with
  | .ok a rest => f a rest
  | .fail ended rest => .fail ended rest
  | .panic => .panic
  | .stuck => .stuck

instance : Monad P where
  pure a := fun ts => .ok a ts
  bind := P.bind

/-- A panic that is not recovered from. -/
def crash {α : Type} : P α := fun _ => .panic

/-- Out of fuel. -/
def stuck {α : Type} : P α := fun _ => .stuck

/-- parser/parser.go:72-74 `error`, with a current token that is not the end of the statement. -/
def error {α : Type} : P α := fun ts => .fail false ts

/-- `error` with the current token `t`. -/
def errorAt {α : Type} (t : Token) : P α := fun ts => .fail (t == .endOfStatement) ts

/-- `error` with a message made with `got` (parser/parser.go:112-135), which calls a method of the
error of the token. -/
def errorGot {α : Type} (t : Token) : P α := if t = .error true then crash else errorAt t

/-- parser/parser.go:76-97 `scanRune` and `scan`. A token with a nil error is returned as the rune
0, or as token.Error if it has been put back; no test tells them apart. -/
def next : P Token
  | [] => .ok .eof []
  | .error false :: rest => .fail false rest
  | t :: rest => .ok t rest

/-- parser/parser.go:99-110 `unscan`, with the token `t` that is put back. -/
def unscan (t : Token) : P Unit := fun ts => .ok () (if t = .eof then ts else t :: ts)

/-- A loop: `step` returns the new state and whether to go on. -/
def loopFuel {σ : Type} (step : σ → P (σ × Bool)) : Nat → σ → P σ
  | 0, _ => stuck
  | n + 1, s => do
    let (s, again) ← step s
    if again then loopFuel step n s else pure s

/-- A loop that takes a token every time it goes on. -/
def loop {σ : Type} (step : σ → P (σ × Bool)) (s : σ) : P σ := fun ts =>
  loopFuel step (ts.length + 1) s ts

end P

namespace P

/-- parser/parser.go:137-163 `expectReserved`. -/
def expectReserved (ids : List Identifier) : P Identifier := do
  let t ← next
  match t with
  | .reserved id => if id ∈ ids then pure id else errorGot t
  | _ => errorGot t

/-- parser/parser.go:165-177 `optionalReserved`, with the identifier of the current token. -/
def optionalReservedId (ids : List Identifier) : P (Option Identifier) := do
  let t ← next
  match t with
  | .reserved id => if id ∈ ids then pure (some id) else do unscan t; pure none
  | _ => do unscan t; pure none

/-- parser/parser.go:165-177 `optionalReserved`. -/
def optionalReserved (ids : List Identifier) : P Bool := do
  let id ← optionalReservedId ids
  pure id.isSome

/-- parser/parser.go:179-185 `expectIdentifier`. -/
def expectIdentifier : P Identifier := do
  let t ← next
  match t with
  | .identifier id => pure id
  | _ => errorGot t

/-- parser/parser.go:187-194 `maybeIdentifier`. -/
def maybeIdentifier (id : Identifier) : P Bool := do
  let t ← next
  if t = .identifier id then pure true else do unscan t; pure false

/-- parser/parser.go:196-220 `expectTokens`. -/
def expectTokens (tokens : List Token) : P Token := do
  let t ← next
  if t ∈ tokens then pure t else errorGot t

/-- parser/parser.go:222-228 `maybeToken`. -/
def maybeToken (mt : Token) : P Bool := do
  let t ← next
  if t = mt then pure true else do unscan t; pure false

/-- parser/parser.go:230-237 `expectInteger`. -/
def expectInteger (min max : Int) : P (BitVec 64) := do
  let t ← next
  match t with
  | .integer i => if i.toInt < min ∨ i.toInt > max then errorGot t else pure i
  | _ => errorGot t

/-- parser/parser.go:239-244 `expectEndOfStatement`. -/
def expectEndOfStatement : P Unit := do
  let t ← next
  if t = .eof ∨ t = .endOfStatement then pure () else errorGot t

/-- The loops that end with a closing parenthesis: after `step`, a comma goes on. Where Go tests for
the parenthesis with `maybeToken` and then calls `expectTokens(token.Comma)`, the same tokens
are accepted. -/
def closed {σ : Type} (step : σ → P σ) : σ → P σ :=
  loop fun s => do
    let s ← step s
    let t ← expectTokens [Tok.comma, Tok.rparen]
    pure (s, t == Tok.comma)

/-- The loops that go on with a comma. -/
def separated {σ : Type} (step : σ → P σ) : σ → P σ :=
  loop fun s => do
    let s ← step s
    let again ← maybeToken Tok.comma
    pure (s, again)

/-- A list that ends with a closing parenthesis. -/
def closedList {α : Type} (item : P α) : P (List α) :=
  closed (fun l => do let a ← item; pure (l ++ [a])) []

/-- A list with commas. -/
def separatedList {α : Type} (item : P α) : P (List α) :=
  separated (fun l => do let a ← item; pure (l ++ [a])) []

/-- A list of different identifiers that ends with a closing parenthesis, as in
parser/parser.go:1309-1322. -/
def distinctColumns : P (List Identifier) :=
  closed (fun l => do let nam ← expectIdentifier; if nam ∈ l then error else pure (l ++ [nam])) []

end P

open P

/-- `opPrecedence`, parser/parser.go:1034-1056. -/
def opPrecedence : SqlOp → Nat
  | .add => 7
  | .and => 2
  | .binaryAnd => 6
  | .binaryOr => 6
  | .concat => 10
  | .divide => 8
  | .equal => 4
  | .greaterEqual => 5
  | .greaterThan => 5
  | .lessEqual => 5
  | .lessThan => 5
  | .lShift => 6
  | .modulo => 8
  | .multiply => 8
  | .negate => 9
  | .noOp => 11
  | .notEqual => 4
  | .not => 3
  | .or => 1
  | .rShift => 6
  | .subtract => 7

/-- `binaryOps`, parser/parser.go:1058-1080, with whether the operator is boolean. -/
def binaryOps : List (Token × SqlOp × Bool) :=
  [(Tok.ampersand, .binaryAnd, false), (Tok.bar, .binaryOr, false), (.barBar, .concat, false),
   (Tok.equal, .equal, true), (.equalEqual, .equal, true), (.bangEqual, .notEqual, true),
   (Tok.greater, .greaterThan, true), (.greaterEqual, .greaterEqual, true),
   (.greaterGreater, .rShift, false), (Tok.less, .lessThan, true), (.lessEqual, .lessEqual, true),
   (.lessGreater, .notEqual, true), (.lessLess, .lShift, false), (Tok.minus, .subtract, false),
   (Tok.percent, .modulo, false), (Tok.plus, .add, false), (Tok.slash, .divide, false),
   (Tok.star, .multiply, false)]

/-- parser/parser.go:1083-1121 `adjustPrecedence`, with fuel. -/
def adjustPrecedence : Nat → Expr → Option Expr
  | 0, _ => none
  | n + 1, .unary op e =>
    match adjustPrecedence n e with
    | none => none
    | some e =>
      if op = .noOp then some (.unary op e)
      else
        match e with
        | .binary bop l r =>
          if opPrecedence bop < opPrecedence op then
            adjustPrecedence n (.binary bop (.unary op l) r)
          else some (.unary op e)
        | _ => some (.unary op e)
  | n + 1, .binary op l r =>
    match adjustPrecedence n l, adjustPrecedence n r with
    | some l, some r =>
      match r with
      | .binary bop bl br =>
        if opPrecedence bop ≤ opPrecedence op then
          adjustPrecedence n (.binary bop (.binary op l bl) br)
        else
          match l with
          | .binary cop cl cr =>
            if opPrecedence cop < opPrecedence op then
              adjustPrecedence n (.binary cop cl (.binary op cr r))
            else some (.binary op l r)
          | _ => some (.binary op l r)
      | _ =>
        match l with
        | .binary cop cl cr =>
          if opPrecedence cop < opPrecedence op then
            adjustPrecedence n (.binary cop cl (.binary op cr r))
          else some (.binary op l r)
        | _ => some (.binary op l r)
    | _, _ => none
  | n + 1, .call name args =>
    match args.mapM (adjustPrecedence n) with
    | none => none
    | some args => some (.call name args)
  | _ + 1, .lit v => some (.lit v)
  | _ + 1, .ref id ids => some (.ref id ids)
  | _ + 1, .subquery op exprOp e q => some (.subquery op exprOp e q)

mutual

/-- The number of nodes `adjustPrecedence` can visit. -/
def Expr.nodes : Expr → Nat
  | .unary _ e => e.nodes + 1
  | .binary _ l r => l.nodes + r.nodes + 1
  | .call _ args => Expr.nodesList args + 1
  | .lit _ => 1
  | .ref _ _ => 1
  | .subquery _ _ _ _ => 1

def Expr.nodesList : List Expr → Nat
  | [] => 0
  | e :: l => e.nodes + Expr.nodesList l

end

/-- `adjustPrecedence` with enough fuel (see `adj_total` in Lemmas/Adjust.lean). -/
def adjust (e : Expr) : P Expr := fun ts =>
  match adjustPrecedence (3 * e.nodes + 1) e with
  | some e => .ok e ts
  | none => .stuck

/-- The methods that call each other. -/
structure Parsers where
  /-- `parseSubExpr` -/
  subExpr : P Expr
  /-- `optionalSubquery` -/
  query : P (Option Query)
  /-- `parseFromItem` -/
  fromItem : P FromItem

/-- parser/parser.go:1123-1125 `parseExpr`. -/
def Parsers.expr (p : Parsers) : P Expr := do
  let e ← p.subExpr
  adjust e

/-- parser/parser.go:1152-1167 `optionalBinaryOp`: the operator and whether it is boolean. -/
def optionalBinaryOp : P (Option (SqlOp × Bool)) := do
  let t ← next
  match binaryOps.lookup t with
  | some op => pure (some op)
  | none =>
    if t = .reserved Kw.AND then pure (some (.and, true))
    else if t = .reserved Kw.OR then pure (some (.or, true))
    else do unscan t; pure none

/-- parser/parser.go:369-379 `parseSchemaName`. -/
def parseSchemaName : P SchemaName := do
  let id ← expectIdentifier
  let dot ← maybeToken Tok.dot
  if dot then do
    let schema ← expectIdentifier
    pure ⟨id, schema⟩
  else pure ⟨0, id⟩

/-- parser/parser.go:381-394 `parseTableName`. -/
def parseTableName : P TableName := do
  let id ← expectIdentifier
  let dot ← maybeToken Tok.dot
  if dot then do
    let id2 ← expectIdentifier
    let dot ← maybeToken Tok.dot
    if dot then do
      let id3 ← expectIdentifier
      pure ⟨id, id2, id3⟩
    else pure ⟨0, id, id2⟩
  else pure ⟨0, 0, id⟩

/-- parser/parser.go:396-408 `parseAlias`. -/
def parseAlias (required : Bool) : P Identifier := do
  let as ← optionalReserved [Kw.AS]
  if as then expectIdentifier
  else do
    let t ← next
    match t with
    | .identifier id => pure id
    | _ => if required then errorAt t else do unscan t; pure 0

/-- parser/parser.go:410-420 `parseTableAlias`. -/
def parseTableAlias : P FromItem := do
  let tn ← parseTableName
  let at_ ← maybeToken Tok.atSign
  if at_ then do
    let index ← expectIdentifier
    let alias ← parseAlias false
    pure (.index tn index alias)
  else do
    let alias ← parseAlias false
    pure (.table tn alias)

/-- parser/parser.go:422-436 `parseColumnAliases`. -/
def parseColumnAliases : P (List Identifier) := do
  let paren ← maybeToken Tok.lparen
  if paren then closedList expectIdentifier else pure []

/-- parser/parser.go:1290-1298 `parseSubquery`. -/
def Parsers.subquery (p : Parsers) : P Query := do
  let _ ← expectTokens [Tok.lparen]
  let q ← p.query
  match q with
  | none => error
  | some q => do
    let _ ← expectTokens [Tok.rparen]
    pure q

/-- parser/parser.go:1197-1224: what follows an identifier in an expression. -/
def Parsers.call (p : Parsers) (id : Identifier) : P Expr := do
  let paren ← maybeToken Tok.lparen
  if paren then do
    let empty ← maybeToken Tok.rparen
    if empty then pure (.call id [])
    else do
      let star ← if id = Kw.COUNT then maybeToken Tok.star else pure false
      if star then do
        let _ ← expectTokens [Tok.rparen]
        pure (.call Kw.COUNT_ALL [])
      else do
        let args ← closedList p.subExpr
        pure (.call id args)
  else do
    let ids ← loop (fun ids => do
      let dot ← maybeToken Tok.dot
      if dot then do
        let id ← expectIdentifier
        pure (ids ++ [id], true)
      else pure (ids, false)) []
    pure (.ref id ids)

/-- parser/parser.go:1169-1241: the first part of `parseSubExpr`. -/
def Parsers.operand (p : Parsers) : P Expr := do
  let t ← next
  match t with
  | .reserved id =>
    if id = Kw.TRUE then pure (.lit (some (.bool true)))
    else if id = Kw.FALSE then pure (.lit (some (.bool false)))
    else if id = Kw.NULL then pure (.lit none)
    else if id = Kw.NOT then do
      let e ← p.subExpr
      pure (.unary .not e)
    else if id = Kw.EXISTS then do
      let q ← p.subquery
      pure (.subquery .exists .add none q)
    else error
  | .string s => pure (.lit (some (.str s)))
  | .bytes b => pure (.lit (some (.bytes b)))
  | .integer i => pure (.lit (some (.int i)))
  | .float f => pure (.lit (some (.float f)))
  | .identifier id => p.call id
  | t =>
    if t = Tok.minus then do
      let e ← p.subExpr
      pure (.unary .negate e)
    else if t = Tok.lparen then do
      let q ← p.query
      match q with
      | some q => do
        let _ ← expectTokens [Tok.rparen]
        pure (.subquery .scalar .add none q)
      | none => do
        let e ← p.subExpr
        let _ ← expectTokens [Tok.rparen]
        pure (.unary .noOp e)
    else errorGot t

/-- parser/parser.go:1243-1287: the second part of `parseSubExpr`. -/
def Parsers.operator (env : ParseEnv) (p : Parsers) (e : Expr) : P Expr := do
  let op ← optionalBinaryOp
  match op with
  | none => do
    let id ← optionalReservedId [Kw.IN, Kw.NOT, Kw.IS]
    match id with
    | none => pure e
    | some id =>
      if id = Kw.IN then do
        let q ← p.subquery
        pure (.subquery .any .equal (some e) q)
      else if id = Kw.NOT then do
        let in_ ← optionalReserved [Kw.IN]
        if in_ then do
          let q ← p.subquery
          pure (.subquery .all .notEqual (some e) q)
        else do
          unscan (.reserved Kw.NOT)
          pure e
      else do
        let not ← optionalReserved [Kw.NOT]
        let _ ← expectReserved [Kw.NULL]
        let e := Expr.call (env.id (ascii "is_null") false) [e]
        pure (if not then .unary .not e else e)
  | some (op, bool) => do
    let id ← optionalReservedId [Kw.ANY, Kw.SOME, Kw.ALL]
    match id with
    | some id =>
      if bool then do
        let q ← p.subquery
        pure (.subquery (if id = Kw.ALL then .all else .any) op (some e) q)
      else error
    | none => do
      let r ← p.subExpr
      pure (.binary op e r)

/-- parser/parser.go:1169-1288 `parseSubExpr`. -/
def Parsers.stepSubExpr (env : ParseEnv) (p : Parsers) : P Expr := do
  let e ← p.operand
  p.operator env e

/-- parser/parser.go:1400-1429 `parseValues`. -/
def Parsers.values (p : Parsers) : P Query := do
  let rows ← separated (fun rows => do
    let _ ← expectTokens [Tok.lparen]
    let row ← closedList p.expr
    match rows with
    | [] => pure [row]
    | row0 :: _ =>
      if row0.length ≠ row.length then error else pure (rows ++ [row])) []
  pure (.values rows)

/-- parser/parser.go:1611-1617 `parseFromList`. -/
def Parsers.fromList (p : Parsers) : P FromItem := do
  let fi ← p.fromItem
  loop (fun fi => do
    let comma ← maybeToken Tok.comma
    if comma then do
      let r ← p.fromItem
      pure (.join fi r .crossJoin none [], true)
    else pure (fi, false)) fi

/-- parser/parser.go:1450-1472: one item of the list after `SELECT`. -/
def Parsers.result (p : Parsers) : P SelectResult := do
  let t ← next
  match t with
  | .identifier tbl => do
    let dot ← maybeToken Tok.dot
    if dot then do
      let star ← maybeToken Tok.star
      if star then pure (.table tbl)
      else do
        unscan Tok.dot
        unscan t
        let e ← p.expr
        let alias ← parseAlias false
        pure (.expr e alias)
    else do
      unscan t
      let e ← p.expr
      let alias ← parseAlias false
      pure (.expr e alias)
  | _ => do
    unscan t
    let e ← p.expr
    let alias ← parseAlias false
    pure (.expr e alias)

/-- parser/parser.go:1507-1514: one column after `ORDER BY`. -/
def parseOrderBy : P (Identifier × Bool) := do
  let id ← expectIdentifier
  let desc ← optionalReserved [Kw.DESC]
  if desc then pure (id, true)
  else do
    let _ ← optionalReserved [Kw.ASC]
    pure (id, false)

/-- An optional clause. -/
def P.clause {α : Type} (id : Identifier) (m : P α) : P (Option α) := do
  let found ← optionalReserved [id]
  if found then do
    let a ← m
    pure (some a)
  else pure none

/-- parser/parser.go:1446-1522 `parseSelect`. -/
def Parsers.select (p : Parsers) : P Query := do
  let star ← maybeToken Tok.star
  let results ← if star then pure [] else separatedList p.result
  let fromItem ← clause Kw.FROM p.fromList
  let cond ← clause Kw.WHERE p.expr
  let groupBy ← clause Kw.GROUP (do
    let _ ← expectReserved [Kw.BY]
    separatedList p.expr)
  let having ← clause Kw.HAVING p.expr
  let orderBy ← clause Kw.ORDER (do
    let _ ← expectReserved [Kw.BY]
    separatedList parseOrderBy)
  pure (.select results fromItem cond (groupBy.getD []) having (orderBy.getD []))

/-- `SELECT * FROM` a table, with a condition. -/
def selectFrom (tn : TableName) (cond : Option Expr) : Query :=
  .select [] (some (.table tn 0)) cond [] none []

/-- A reference to an unquoted name. -/
def ParseEnv.name (env : ParseEnv) (s : String) : Expr := .ref (env.id (ascii s) false) []

/-- parser/parser.go:1683-1702: the test of the schema in `parseShowFromTable`. -/
def schemaTest (env : ParseEnv) (schema : Identifier) : Expr :=
  .binary .equal (env.name "schema_name")
    (if schema = 0 then .subquery .scalar .add none (.show Kw.SCHEMA)
     else .lit (some (.str (env.string schema))))

/-- parser/parser.go:1722-1743 and 1764-1785: `SHOW COLUMNS` and `SHOW CONSTRAINTS`. -/
def showFromTable (env : ParseEnv) (table : Identifier) : P Query := do
  let _ ← expectReserved [Kw.FROM]
  let tn ← parseTableName
  pure (selectFrom ⟨tn.database, Kw.METADATA, table⟩
    (some (.binary .and
      (.binary .equal (env.name "table_name") (.lit (some (.str (env.string tn.table)))))
      (schemaTest env tn.schema))))

/-- parser/parser.go:1717-1840: `SHOW` and an identifier. -/
def showVariable (env : ParseEnv) (id : Identifier) : P Query :=
  if id = Kw.COLUMNS then showFromTable env Kw.COLUMNS
  else if id = Kw.CONFIG then
    pure (.select [.expr (env.name "name") 0, .expr (env.name "value") 0, .expr (env.name "by") 0]
      (some (.table ⟨Kw.SYSTEM, Kw.INFO, Kw.CONFIG⟩ 0))
      (some (.binary .equal (env.name "hidden") (.lit (some (.bool false))))) [] none [])
  else if id = Kw.CONSTRAINTS then showFromTable env Kw.CONSTRAINTS
  else if id = Kw.DATABASES then pure (selectFrom ⟨Kw.SYSTEM, Kw.INFO, Kw.DATABASES⟩ none)
  else if id = Kw.SCHEMAS then do
    let db ← clause Kw.FROM expectIdentifier
    pure (selectFrom ⟨db.getD 0, Kw.METADATA, Kw.SCHEMAS⟩ none)
  else if id = Kw.TABLES then do
    let sn ← clause Kw.FROM parseSchemaName
    match sn with
    | some sn =>
      pure (selectFrom ⟨sn.database, Kw.METADATA, Kw.TABLES⟩
        (some (.binary .equal (env.name "schema_name")
          (.lit (some (.str (env.string sn.schema)))))))
    | none =>
      pure (selectFrom ⟨0, Kw.METADATA, Kw.TABLES⟩
        (some (.binary .equal (env.name "schema_name")
          (.subquery .scalar .add none (.show Kw.SCHEMA)))))
  else pure (.show id)

/-- parser/parser.go:1704-1841 `parseShow`. -/
def parseShow (env : ParseEnv) : P Query := do
  let t ← next
  match t with
  | .reserved id => showVariable env id
  | .identifier id => showVariable env id
  | _ => errorAt t

/-- parser/parser.go:999-1016 `optionalSubquery`. -/
def Parsers.stepQuery (env : ParseEnv) (p : Parsers) : P (Option Query) := do
  let select ← optionalReserved [Kw.SELECT]
  if select then do
    let q ← p.select
    pure (some q)
  else do
    let values ← optionalReserved [Kw.VALUES]
    if values then do
      let q ← p.values
      pure (some q)
    else do
      let show_ ← optionalReserved [Kw.SHOW]
      if show_ then do
        let q ← parseShow env
        pure (some q)
      else do
        let table ← optionalReserved [Kw.TABLE]
        if table then do
          let tn ← parseTableName
          pure (some (selectFrom tn none))
        else pure none

/-- parser/parser.go:1619-1623 `parseFromStmt`. -/
def parseFromStmt (q : Query) : P FromItem := do
  let _ ← expectTokens [Tok.rparen]
  let alias ← parseAlias true
  let cols ← parseColumnAliases
  pure (.stmt q alias cols)

/-- parser/parser.go:1550-1571: the type of a join, if there is one. -/
def parseJoinType : P (Option JoinType) := do
  let id ← optionalReservedId [Kw.JOIN, Kw.INNER, Kw.LEFT, Kw.RIGHT, Kw.FULL, Kw.CROSS]
  match id with
  | none => pure none
  | some id =>
    if id = Kw.JOIN then pure (some .join)
    else if id = Kw.INNER then do
      let _ ← expectReserved [Kw.JOIN]
      pure (some .join)
    else if id = Kw.CROSS then do
      let _ ← expectReserved [Kw.JOIN]
      pure (some .crossJoin)
    else do
      let _ ← optionalReserved [Kw.OUTER]
      let _ ← expectReserved [Kw.JOIN]
      pure (some (if id = Kw.LEFT then .leftJoin
        else if id = Kw.RIGHT then .rightJoin else .fullJoin))

/-- parser/parser.go:1578-1595: the condition of a join. -/
def Parsers.joinCondition (p : Parsers) : P (Option Expr × List Identifier) := do
  let on ← clause Kw.ON p.expr
  match on with
  | some e => pure (some e, [])
  | none => do
    let cols ← clause Kw.USING (do
      let _ ← expectTokens [Tok.lparen]
      distinctColumns)
    pure (none, cols.getD [])

/-- parser/parser.go:1536-1609 `parseFromItem`. -/
def Parsers.stepFromItem (p : Parsers) : P FromItem := do
  let paren ← maybeToken Tok.lparen
  let fi ← if paren then (do
      let q ← p.query
      match q with
      | some q => parseFromStmt q
      | none => do
        let fi ← p.fromList
        let _ ← expectTokens [Tok.rparen]
        pure fi)
    else parseTableAlias
  let jt ← parseJoinType
  match jt with
  | none => pure fi
  | some jt => do
    let r ← p.fromItem
    let (on, cols) ← p.joinCondition
    if jt = .crossJoin then
      if on.isSome ∨ cols ≠ [] then error else pure (.join fi r jt on cols)
    else
      if (on.isSome ∧ cols ≠ []) ∨ (on.isNone ∧ cols = []) then error
      else pure (.join fi r jt on cols)

/-- The methods that call each other, `n` calls deep. -/
def parsers (env : ParseEnv) : Nat → Parsers
  | 0 => ⟨stuck, stuck, stuck⟩
  | n + 1 =>
    let p := parsers env n
    ⟨p.stepSubExpr env, p.stepQuery env, p.stepFromItem⟩

/-- parser/parser.go:454-484 `parseKey`. -/
def parseKey (unique : Bool) : P IndexKey := do
  let _ ← expectTokens [Tok.lparen]
  closed (fun key : IndexKey => do
    let nam ← expectIdentifier
    if nam ∈ key.columns then error
    else do
      let asc ← optionalReserved [Kw.ASC]
      let desc ← if asc then pure false else optionalReserved [Kw.DESC]
      pure { key with columns := key.columns ++ [nam], reverse := key.reverse ++ [desc] })
    ⟨unique, [], []⟩

/-- parser/parser.go:486-504 `parseRefAction`. -/
def parseRefAction : P RefAction := do
  let id ← expectReserved [Kw.NO, Kw.RESTRICT, Kw.CASCADE, Kw.SET]
  if id = Kw.NO then do
    let _ ← expectReserved [Kw.ACTION]
    pure .noAction
  else if id = Kw.RESTRICT then pure .restrict
  else if id = Kw.CASCADE then pure .cascade
  else do
    let id ← expectReserved [Kw.NULL, Kw.DEFAULT]
    pure (if id = Kw.NULL then .setNull else .setDefault)

/-- parser/parser.go:506-525 `parseOnActions`: the actions on delete and on update. -/
def parseOnActions : P (Option RefAction × Option RefAction) :=
  loop (fun s : Option RefAction × Option RefAction => do
    let on ← optionalReserved [Kw.ON]
    if on then do
      let id ← expectReserved [Kw.DELETE, Kw.UPDATE]
      if id = Kw.DELETE then
        if s.1.isSome then error
        else do
          let a ← parseRefAction
          pure ((some a, s.2), true)
      else
        if s.2.isSome then error
        else do
          let a ← parseRefAction
          pure ((s.1, some a), true)
    else pure (s, false)) (none, none)

/-- parser/parser.go:527-559 `parseForeignKey`. -/
def parseForeignKey (cn : Identifier) : P ForeignKey := do
  let _ ← expectTokens [Tok.lparen]
  let cols ← closedList expectIdentifier
  let _ ← expectReserved [Kw.REFERENCES]
  let rtn ← parseTableName
  let paren ← maybeToken Tok.lparen
  let refCols ← if paren then closedList expectIdentifier else pure []
  let (onDelete, onUpdate) ← parseOnActions
  pure ⟨cn, cols, rtn, refCols, onDelete.getD .noAction, onUpdate.getD .noAction⟩

/-- parser/sql/datadef.go:34-45 `IndexKey.Equal`; the index of a missing direction panics. -/
def IndexKey.equal (k k2 : IndexKey) : Res Bool :=
  if k.columns.length ≠ k2.columns.length then .ok false
  else go k.columns k.reverse k2.columns k2.reverse
where
  go : List Identifier → List Bool → List Identifier → List Bool → Res Bool
    | c :: cs, r, c2 :: cs2, r2 =>
      if c ≠ c2 then .ok false
      else
        match r, r2 with
        | d :: ds, d2 :: ds2 => if d ≠ d2 then .ok false else go cs ds cs2 ds2
        | _, _ => .panic
    | _, _, _, _ => .ok true

/-- parser/parser.go:714-718: is there an equal key? -/
def anyEqualKey (key : IndexKey) : List Constraint → Res Bool
  | [] => .ok false
  | c :: cs =>
    match key.equal c.key with
    | .ok true => .ok true
    | .ok false => anyEqualKey key cs
    | .err e => .err e
    | .panic => .panic

/-- parser/parser.go:702-727 `addKeyConstraint`. -/
def addKeyConstraint (s : CreateTable) (ct : ConstraintType) (cn : Identifier) (key : IndexKey) :
    P CreateTable :=
  if s.constraints.any (fun c => c.name == cn || (c.type == .primary && ct == .primary)) then error
  else
    match anyEqualKey key s.constraints with
    | .ok false => pure { s with constraints := s.constraints ++ [⟨ct, cn, -1, key, none⟩] }
    | .ok true => error
    | _ => crash

/-- parser/parser.go:729-746 `addColumnConstraint`. -/
def addColumnConstraint (s : CreateTable) (ct : ConstraintType) (cn : Identifier) (colNum : Nat) :
    P CreateTable :=
  if s.constraints.any (fun c => c.name == cn || (c.colNum == (colNum : Int) && c.type == ct))
  then error
  else pure { s with constraints := s.constraints ++ [⟨ct, cn, colNum, .zero, none⟩] }

/-- parser/parser.go:689-700 `makeKeyConstraintName`. -/
def makeKeyConstraintName (env : ParseEnv) (cn : Identifier) (cols : List Identifier)
    (suffix : String) : Identifier :=
  if cn ≠ 0 then cn
  else env.id (cols.flatMap (fun c => env.string c ++ ascii "_") ++ ascii suffix) false

/-- types/column.go:12: `MaxColumnSize`. -/
def maxColumnSize : Nat := 2 ^ 32 - 2

/-- `ColumnTypes`, parser/parser.go:618-641. -/
def columnTypes : List (Identifier × ColumnType) :=
  [(Kw.BINARY, ⟨.bytes, 1, true, false⟩),
   (Kw.VARBINARY, ⟨.bytes, 1, false, false⟩),
   (Kw.BLOB, ⟨.bytes, BitVec.ofNat 32 maxColumnSize, false, false⟩),
   (Kw.BYTEA, ⟨.bytes, BitVec.ofNat 32 maxColumnSize, false, false⟩),
   (Kw.BYTES, ⟨.bytes, BitVec.ofNat 32 maxColumnSize, false, false⟩),
   (Kw.CHAR, ⟨.string, 1, true, false⟩),
   (Kw.CHARACTER, ⟨.string, 1, true, false⟩),
   (Kw.VARCHAR, ⟨.string, 1, false, false⟩),
   (Kw.TEXT, ⟨.string, BitVec.ofNat 32 maxColumnSize, false, false⟩),
   (Kw.BOOL, ⟨.bool, 1, false, false⟩),
   (Kw.BOOLEAN, ⟨.bool, 1, false, false⟩),
   (Kw.DOUBLE, ⟨.float64, 8, false, false⟩),
   (Kw.REAL, ⟨.float64, 4, false, false⟩),
   (Kw.SMALLINT, ⟨.int64, 2, false, false⟩),
   (Kw.INT2, ⟨.int64, 2, false, false⟩),
   (Kw.INT, ⟨.int64, 4, false, false⟩),
   (Kw.INTEGER, ⟨.int64, 4, false, false⟩),
   (Kw.INT4, ⟨.int64, 4, false, false⟩),
   (Kw.INT8, ⟨.int64, 8, false, false⟩),
   (Kw.BIGINT, ⟨.int64, 8, false, false⟩)]

/-- parser/parser.go:643-687 `parseColumnType`. -/
def parseColumnType : P ColumnType := do
  let typ ← expectIdentifier
  match columnTypes.lookup typ with
  | none => error
  | some ct => do
    let _ ← if typ = Kw.DOUBLE then maybeIdentifier Kw.PRECISION else pure false
    if ct.type = .string ∨ ct.type = .bytes then do
      let paren ← maybeToken Tok.lparen
      if paren then do
        let i ← expectInteger 0 maxColumnSize
        let _ ← expectTokens [Tok.rparen]
        pure { ct with size := BitVec.setWidth 32 i }
      else pure ct
    else pure ct

/-- `CONSTRAINT` and a name, or 0. -/
def parseConstraintName : P Identifier := do
  let cn ← clause Kw.CONSTRAINT expectIdentifier
  pure (cn.getD 0)

/-- The state of the loop in `parseColumn`. -/
structure ColumnState where
  s : CreateTable
  ct : ColumnType
  dflt : Option Expr

/-- parser/parser.go:773-850: one turn of the loop in `parseColumn`. -/
def Parsers.columnConstraint (env : ParseEnv) (p : Parsers) (nam : Identifier) (st : ColumnState) :
    P (ColumnState × Bool) := do
  let cn ← parseConstraintName
  let colNum := st.s.columns.length - 1
  let id ← optionalReservedId
    [Kw.DEFAULT, Kw.NOT, Kw.PRIMARY, Kw.UNIQUE, Kw.CHECK, Kw.REFERENCES]
  match id with
  | none => if cn ≠ 0 then error else pure (st, false)
  | some id =>
    if id = Kw.DEFAULT then
      if st.dflt.isSome then error
      else do
        let s ← if cn ≠ 0 then addColumnConstraint st.s .default cn colNum else pure st.s
        let e ← p.expr
        pure ({ st with s := s, dflt := some e }, true)
    else if id = Kw.NOT then do
      let _ ← expectReserved [Kw.NULL]
      if st.ct.notNull then error
      else do
        let s ← if cn ≠ 0 then addColumnConstraint st.s .notNull cn colNum else pure st.s
        pure ({ st with s := s, ct := { st.ct with notNull := true } }, true)
    else if id = Kw.PRIMARY then do
      let _ ← expectReserved [Kw.KEY]
      let cn := if cn = 0 then env.id (env.string nam ++ ascii "_primary") false else cn
      let s ← addKeyConstraint st.s .primary cn ⟨true, [nam], [false]⟩
      pure ({ st with s := s }, true)
    else if id = Kw.UNIQUE then do
      let cn := if cn = 0 then env.id (env.string nam ++ ascii "_unique") false else cn
      let s ← addKeyConstraint st.s .unique cn ⟨true, [nam], [false]⟩
      pure ({ st with s := s }, true)
    else if id = Kw.CHECK then do
      let _ ← expectTokens [Tok.lparen]
      let e ← p.expr
      let _ ← expectTokens [Tok.rparen]
      let c : Constraint := ⟨.check, cn, colNum, .zero, some e⟩
      pure ({ st with s := { st.s with constraints := st.s.constraints ++ [c] } }, true)
    else do
      let rtn ← parseTableName
      let paren ← maybeToken Tok.lparen
      let refCols ← if paren then (do
          let col ← expectIdentifier
          let _ ← expectTokens [Tok.rparen]
          pure [col])
        else pure []
      let (onDelete, onUpdate) ← parseOnActions
      let fk : ForeignKey :=
        ⟨cn, [nam], rtn, refCols, onDelete.getD .noAction, onUpdate.getD .noAction⟩
      pure ({ st with s := { st.s with foreignKeys := st.s.foreignKeys ++ [fk] } }, true)

/-- parser/parser.go:748-854 `parseColumn`. -/
def Parsers.column (env : ParseEnv) (p : Parsers) (s : CreateTable) : P CreateTable := do
  let nam ← expectIdentifier
  if nam ∈ s.columns then error
  else do
    let s := { s with columns := s.columns ++ [nam] }
    let ct ← parseColumnType
    let st ← loop (p.columnConstraint env nam) ⟨s, ct, none⟩
    pure { st.s with
      columnTypes := st.s.columnTypes ++ [st.ct]
      columnDefaults := st.s.columnDefaults ++ [st.dflt] }

/-- parser/parser.go:577-615: one turn of the loop in `parseCreateDetails`. -/
def Parsers.createDetail (env : ParseEnv) (p : Parsers) (s : CreateTable) : P CreateTable := do
  let cn ← parseConstraintName
  let id ← optionalReservedId [Kw.PRIMARY, Kw.UNIQUE, Kw.CHECK, Kw.FOREIGN]
  match id with
  | none => if cn ≠ 0 then error else p.column env s
  | some id =>
    if id = Kw.PRIMARY then do
      let _ ← expectReserved [Kw.KEY]
      let key ← parseKey true
      addKeyConstraint s .primary (makeKeyConstraintName env cn key.columns "primary") key
    else if id = Kw.UNIQUE then do
      let key ← parseKey true
      addKeyConstraint s .unique (makeKeyConstraintName env cn key.columns "unique") key
    else if id = Kw.CHECK then do
      let _ ← expectTokens [Tok.lparen]
      let e ← p.expr
      let _ ← expectTokens [Tok.rparen]
      pure { s with constraints := s.constraints ++ [⟨.check, cn, -1, .zero, some e⟩] }
    else do
      let _ ← expectReserved [Kw.KEY]
      let fk ← parseForeignKey cn
      pure { s with foreignKeys := s.foreignKeys ++ [fk] }

/-- `IF NOT EXISTS`. -/
def parseIfNotExists : P Bool := do
  let found ← clause Kw.IF (do
    let _ ← expectReserved [Kw.NOT]
    expectReserved [Kw.EXISTS])
  pure found.isSome

/-- `IF EXISTS`. -/
def parseIfExists : P Bool := do
  let found ← clause Kw.IF (expectReserved [Kw.EXISTS])
  pure found.isSome

/-- parser/parser.go:438-452 `parseCreateTable`, with `parseCreateDetails` (561-616). -/
def Parsers.createTable (env : ParseEnv) (p : Parsers) : P CreateTable := do
  let ifNotExists ← parseIfNotExists
  let table ← parseTableName
  let _ ← expectTokens [Tok.lparen]
  closed (p.createDetail env) ⟨table, [], [], [], ifNotExists, [], []⟩

/-- parser/parser.go:873-918: one action of `parseAlterTable`. -/
def parseAlterAction : P AlterAction := do
  let id ← expectReserved [Kw.ADD, Kw.DROP, Kw.ALTER]
  if id = Kw.ADD then do
    let cn ← parseConstraintName
    let _ ← expectReserved [Kw.FOREIGN]
    let _ ← expectReserved [Kw.KEY]
    let fk ← parseForeignKey cn
    pure (.addForeignKey fk)
  else if id = Kw.DROP then do
    let _ ← expectReserved [Kw.CONSTRAINT]
    let ifExists ← parseIfExists
    let name ← expectIdentifier
    pure (.dropConstraint name ifExists 0 .none)
  else do
    let _ ← optionalReserved [Kw.COLUMN]
    let nam ← expectIdentifier
    let _ ← expectReserved [Kw.DROP]
    let id ← expectReserved [Kw.DEFAULT, Kw.NOT]
    if id = Kw.DEFAULT then pure (.dropConstraint 0 false nam .default)
    else do
      let _ ← expectReserved [Kw.NULL]
      pure (.dropConstraint 0 false nam .notNull)

/-- parser/parser.go:856-926 `parseAlterTable`. -/
def parseAlterTable : P Stmt := do
  let table ← parseTableName
  let actions ← separatedList parseAlterAction
  pure (.alterTable table actions)

/-- parser/parser.go:928-951 `parseCreateIndex`. -/
def parseCreateIndex (unique : Bool) : P Stmt := do
  let ifNotExists ← parseIfNotExists
  let index ← expectIdentifier
  let _ ← expectReserved [Kw.ON]
  let table ← parseTableName
  let using_ ← clause Kw.USING expectIdentifier
  if using_.isSome ∧ using_ ≠ some Kw.BTREE then error
  else do
    let key ← parseKey unique
    pure (.createIndex index table key ifNotExists)

/-- parser/parser.go:953-962 `parseDelete`. -/
def Parsers.delete (p : Parsers) : P Stmt := do
  let table ← parseTableName
  let cond ← clause Kw.WHERE p.expr
  pure (.delete table cond)

/-- parser/parser.go:964-984 `parseDropTable`. -/
def parseDropTable : P Stmt := do
  let ifExists ← parseIfExists
  let tables ← separatedList parseTableName
  let cascade ← optionalReserved [Kw.CASCADE]
  let _ ← if cascade then pure false else optionalReserved [Kw.RESTRICT]
  pure (.dropTable ifExists cascade tables)

/-- parser/parser.go:986-997 `parseDropIndex`. -/
def parseDropIndex : P Stmt := do
  let ifExists ← parseIfExists
  let index ← expectIdentifier
  let _ ← expectReserved [Kw.ON]
  let table ← parseTableName
  pure (.dropIndex table index ifExists)

/-- `DEFAULT` or an expression: parser/parser.go:1332-1338 and 1635-1641. -/
def Parsers.exprOrDefault (p : Parsers) : P (Option Expr) := do
  let dflt ← optionalReserved [Kw.DEFAULT]
  if dflt then pure none
  else do
    let e ← p.expr
    pure (some e)

/-- `'('`, different columns and `')'`, or nothing: parser/parser.go:1309-1323 and 1364-1378. -/
def parseColumns : P (List Identifier) := do
  let paren ← maybeToken Tok.lparen
  if paren then distinctColumns else pure []

/-- parser/parser.go:1300-1353 `parseInsert`. -/
def Parsers.insert (p : Parsers) : P Stmt := do
  let table ← parseTableName
  let columns ← parseColumns
  let _ ← expectReserved [Kw.VALUES]
  let rows ← separatedList (do
    let _ ← expectTokens [Tok.lparen]
    closedList p.exprOrDefault)
  pure (.insert table columns rows)

/-- parser/parser.go:1355-1398 `parseCopy`. -/
def parseCopy : P Stmt := do
  let table ← parseTableName
  let columns ← parseColumns
  let _ ← expectReserved [Kw.FROM]
  let id ← expectIdentifier
  if id ≠ Kw.STDIN then error
  else do
    let delimiter ← clause Kw.DELIMITER (do
      let t ← next
      match t with
      | .string [b] => pure b.toNat
      | _ => errorAt t)
    pure (.copy table columns [] (delimiter.getD 9))

/-- parser/parser.go:1625-1653 `parseUpdate`. -/
def Parsers.update (p : Parsers) : P Stmt := do
  let table ← parseTableName
  let _ ← expectReserved [Kw.SET]
  let updates ← separatedList (do
    let column ← expectIdentifier
    let _ ← expectTokens [Tok.equal]
    let e ← p.exprOrDefault
    pure (column, e))
  let cond ← clause Kw.WHERE p.expr
  pure (.update table updates cond)

/-- types/value.go:160-163 `hexDigits`. -/
def lowerHex (n : Nat) : Byte := BitVec.ofNat 8 (if n < 10 then 48 + n else 87 + n)

/-- The methods `String` in types/value.go:53-175. -/
def ParseEnv.valueString (env : ParseEnv) : Value → Bytes
  | .bool b => ascii (if b then "true" else "false")
  | .int i => formatInt i.toInt
  | .float f => env.formatFloat f
  | .str s => ascii "'" ++ s ++ ascii "'"
  | .bytes b =>
    ascii "'\\x" ++ b.flatMap (fun v => [lowerHex (v.toNat / 16), lowerHex (v.toNat % 16)]) ++
      ascii "'"

/-- parser/parser.go:1669-1678 and 1847-1856: the value of a variable. A method of a nil value
panics. -/
def Parsers.settingValue (env : ParseEnv) (p : Parsers) : P Bytes := do
  let e ← p.expr
  match e with
  | .lit (some (.str s)) => pure s
  | .lit (some v) => pure (env.valueString v)
  | .lit none => crash
  | _ => error

/-- parser/parser.go:1655-1681 `parseSet`. -/
def Parsers.set (env : ParseEnv) (p : Parsers) : P Stmt := do
  let id ← optionalReservedId [Kw.DATABASE, Kw.SCHEMA]
  let var ← match id with
    | some id => pure id
    | none => expectIdentifier
  let equal ← maybeToken Tok.equal
  let _ ← if equal then pure 0 else expectReserved [Kw.TO]
  let value ← p.settingValue env
  pure (.set var value)

/-- parser/parser.go:1843-1859 `parseUse`. -/
def Parsers.use (env : ParseEnv) (p : Parsers) : P Stmt := do
  let value ← p.settingValue env
  pure (.set Kw.DATABASE value)

/-- An assignment to a map; the order of the pairs has no meaning. -/
def setOption (options : List (Identifier × Bytes)) (opt : Identifier) (val : Bytes) :
    List (Identifier × Bytes) :=
  options.filter (fun p => p.1 ≠ opt) ++ [(opt, val)]

/-- parser/parser.go:1861-1895 `parseOptions`. -/
def parseOptions (env : ParseEnv) : P (List (Identifier × Bytes)) := do
  let options ← loop (fun options => do
    let t ← next
    match t with
    | .identifier opt => do
      let _ ← maybeToken Tok.equal
      let t ← next
      match t with
      | .identifier id => pure (setOption options opt (env.string id), true)
      | .string s => pure (setOption options opt s, true)
      | .bytes b => pure (setOption options opt b, true)
      | .integer i => pure (setOption options opt (formatInt i.toInt), true)
      | .float f => pure (setOption options opt (env.formatFloatG f), true)
      | _ => errorAt t
    | _ => do
      unscan t
      pure (options, false)) []
  if options = [] then error else pure options

/-- parser/parser.go:1897-1907 `parseCreateDatabase`. -/
def parseCreateDatabase (env : ParseEnv) : P Stmt := do
  let database ← expectIdentifier
  let options ← clause Kw.WITH (parseOptions env)
  pure (.createDatabase database (options.getD []))

/-- parser/parser.go:1909-1920 `parseDropDatabase`. -/
def parseDropDatabase : P Stmt := do
  let ifExists ← parseIfExists
  let database ← expectIdentifier
  pure (.dropDatabase ifExists database)

/-- parser/parser.go:1930-1941 `parseDropSchema`. -/
def parseDropSchema : P Stmt := do
  let ifExists ← parseIfExists
  let schema ← parseSchemaName
  pure (.dropSchema ifExists schema)

/-- parser/parser.go:1943-1955 `parseExplain`. -/
def Parsers.explain (p : Parsers) : P Stmt := do
  let verbose ← optionalReserved [Kw.VERBOSE]
  let _ ← expectReserved [Kw.SELECT]
  let q ← p.select
  pure (.explain q verbose)

/-- parser/parser.go:285-303: `CREATE`. -/
def Parsers.create (env : ParseEnv) (p : Parsers) : P Stmt := do
  let id ← expectReserved [Kw.DATABASE, Kw.INDEX, Kw.SCHEMA, Kw.TABLE, Kw.UNIQUE]
  if id = Kw.DATABASE then parseCreateDatabase env
  else if id = Kw.INDEX then parseCreateIndex false
  else if id = Kw.SCHEMA then do
    let schema ← parseSchemaName
    pure (.createSchema schema)
  else if id = Kw.TABLE then do
    let s ← p.createTable env
    pure (.createTable s)
  else do
    let _ ← expectReserved [Kw.INDEX]
    parseCreateIndex true

/-- parser/parser.go:308-322: `DROP`. -/
def parseDrop : P Stmt := do
  let id ← expectReserved [Kw.DATABASE, Kw.INDEX, Kw.SCHEMA, Kw.TABLE]
  if id = Kw.DATABASE then parseDropDatabase
  else if id = Kw.INDEX then parseDropIndex
  else if id = Kw.SCHEMA then parseDropSchema
  else parseDropTable

/-- parser/parser.go:277-366: the statement after its first keyword. -/
def Parsers.afterKeyword (env : ParseEnv) (p : Parsers) (id : Identifier) : P (Option Stmt) :=
  if id = Kw.ALTER then do
    let _ ← expectReserved [Kw.TABLE]
    some <$> parseAlterTable
  else if id = Kw.BEGIN then pure (some .begin)
  else if id = Kw.COMMIT then pure (some .commit)
  else if id = Kw.COPY then some <$> parseCopy
  else if id = Kw.CREATE then some <$> p.create env
  else if id = Kw.DELETE then do
    let _ ← expectReserved [Kw.FROM]
    some <$> p.delete
  else if id = Kw.DROP then some <$> parseDrop
  else if id = Kw.EXPLAIN then some <$> p.explain
  else if id = Kw.INSERT then do
    let _ ← expectReserved [Kw.INTO]
    some <$> p.insert
  else if id = Kw.ROLLBACK then pure (some .rollback)
  else if id = Kw.SELECT then (fun q => some (.query q)) <$> p.select
  else if id = Kw.SET then some <$> p.set env
  else if id = Kw.SHOW then (fun q => some (.query q)) <$> parseShow env
  else if id = Kw.START then do
    let _ ← expectReserved [Kw.TRANSACTION]
    pure (some .begin)
  else if id = Kw.UPDATE then some <$> p.update
  else if id = Kw.USE then some <$> p.use env
  else if id = Kw.VALUES then (fun q => some (.query q)) <$> p.values
  else pure none

/-- The first keywords of the statements, parser/parser.go:251-272. -/
def stmtKeywords : List Identifier :=
  [Kw.ALTER, Kw.BEGIN, Kw.COMMIT, Kw.COPY, Kw.CREATE, Kw.DELETE, Kw.DETACH, Kw.DROP, Kw.EXECUTE,
   Kw.EXPLAIN, Kw.INSERT, Kw.PREPARE, Kw.ROLLBACK, Kw.SELECT, Kw.SET, Kw.SHOW, Kw.START, Kw.UPDATE,
   Kw.USE, Kw.VALUES]

/-- parser/parser.go:246-367 `parseStmt`. `none` is the nil statement. -/
def Parsers.stmt (env : ParseEnv) (p : Parsers) : P (Option Stmt) := do
  let empty ← maybeToken .endOfStatement
  if empty then pure none
  else do
    let id ← expectReserved stmtKeywords
    p.afterKeyword env id

/-- parser/parser.go:65-67: a statement and its end. -/
def Parsers.stmtEnd (env : ParseEnv) (p : Parsers) : P (Option Stmt) := do
  let s ← p.stmt env
  expectEndOfStatement
  pure s

/-- `parseStmt` and `expectEndOfStatement` with enough fuel. -/
def parseStmtEnd (env : ParseEnv) : P (Option Stmt) := fun ts =>
  (parsers env (ts.length + 1)).stmtEnd env ts

/-- parser/parser.go:1018-1031 `ParseExpr`, with enough fuel. -/
def parseExpr (env : ParseEnv) : P Expr := fun ts => (parsers env (ts.length + 1)).expr ts

/-- What `Parse` returns: a statement (`none` is nil), `io.EOF`, another error, or a panic. -/
inductive Parsed where
  | stmt (s : Option Stmt)
  | eof
  | error
  | panic
  | stuck

/-- parser/parser.go:42-54: skip the rest of a statement that failed. `none`: `io.EOF`, or an
error if `false`. -/
def skipStatement : List Token → Option Bool × List Token
  | [] => (some false, [])
  | .eof :: rest => (some false, rest)
  | .error false :: rest => (some true, rest)
  | .endOfStatement :: rest => (none, rest)
  | _ :: rest => skipStatement rest

/-- parser/parser.go:56-69: the last part of `Parse`. -/
def parseRecover (env : ParseEnv) (ts : List Token) : Parsed × Bool × List Token :=
  match parseStmtEnd env ts with
  | .ok s rest => (.stmt s, false, rest)
  | .fail ended rest => (.error, !ended, rest)
  | .panic => (.panic, false, [])
  | .stuck => (.stuck, false, [])

/-- parser/parser.go:33-70 `Parse`. `failed` is the field of the parser; the result has its new
value and the tokens that are left. -/
def parse (env : ParseEnv) (failed : Bool) (ts : List Token) : Parsed × Bool × List Token :=
  match ts with
  | [] => (.eof, failed, [])
  | .eof :: rest => (.eof, failed, rest)
  | .error false :: rest => (.error, failed, rest)
  | _ =>
    if failed then
      match skipStatement ts with
      | (some true, rest) => (.error, true, rest)
      | (some false, rest) => (.eof, true, rest)
      | (none, rest) => parseRecover env rest
    else parseRecover env ts

/-- The field `failed` and the tokens that are left after `k` calls of `Parse`. -/
def afterCalls (env : ParseEnv) (ts : List Token) : Nat → Bool × List Token
  | 0 => (false, ts)
  | k + 1 => (parse env (afterCalls env ts k).1 (afterCalls env ts k).2).2

/-- What call number `k` of `Parse` returns. -/
def parsedAt (env : ParseEnv) (ts : List Token) (k : Nat) : Parsed :=
  (parse env (afterCalls env ts k).1 (afterCalls env ts k).2).1

/-- The tokens of an input, with fuel. -/
def tokenizeFuel (env : ScanEnv) : Nat → List Nat → List Token
  | 0, _ => []
  | n + 1, l =>
    let s := Maho.scan env false l
    if s.token = .eof then [] else s.token :: tokenizeFuel env n s.rest

/-- The tokens of an input: every token takes a rune of the input (C56). -/
def tokenize (env : ScanEnv) (l : List Nat) : List Token := tokenizeFuel env (l.length + 1) l

end Maho
