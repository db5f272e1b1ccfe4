import Verif.Model.Parse
import Verif.Model.Lookback
/-
Model of parser/parser.go with the ring of three tokens that the parser keeps, after Model/Parse.lean.
What has been read is looked up in the ring, as the code does with the field `sctx`.
-/
namespace Maho

/-- What a method of the parser does: return, `p.error` (a panic that `Parse` recovers from;
`ended` tells whether the current token is then the end of the statement), a panic that `Parse`
does not recover from, or run out of fuel. -/
inductive RRes (α : Type) where
  | ok (a : α) (r : Ring)
  | fail (ended : Bool) (r : Ring)
  | panic
  | stuck

/-- A method of the parser. The list has all tokens of the input, those that have been read too. -/
def RP (α : Type) := List Token → Ring → RRes α

namespace RP

def bind {α β : Type} (m : RP α) (f : α → RP β) : RP β := fun ts r =>
  match m ts r with
  | .ok a r => f a ts r
  | .fail ended r => .fail ended r
  | .panic => .panic
  | .stuck => .stuck

instance : Monad RP where
  pure a := fun _ r => .ok a r
  bind := RP.bind

/-- A panic that is not recovered from. -/
def crash {α : Type} : RP α := fun _ _ => .panic

/-- Out of fuel. -/
def stuck {α : Type} : RP α := fun _ _ => .stuck

/-- The token that the field `sctx` points to. -/
def current : RP Token := fun _ r => .ok (r.lookBack r.current) r

/-- The identifier of that token. -/
def currentId : RP Identifier := do
  let t ← current
  match t with
  | .identifier id => pure id
  | .reserved id => pure id
  | _ => pure 0

/-- parser/parser.go:72-74 `error`, with 59-62 of `Parse`. -/
def error {α : Type} : RP α := fun _ r => .fail (r.lookBack r.current == .endOfStatement) r

/-- `error` with a message made with `got` (parser/parser.go:112-135), which calls a method of the
error of the token. -/
def errorGot {α : Type} : RP α := do
  let t ← current
  if t = .error true then crash else error

/-- Call number `k` of the scanner. -/
def stream (ts : List Token) (k : Nat) : Token := ts.getD k .eof

/-- parser/parser.go:76-97 `scanRune` and `scan`: only a token that comes from the scanner is
tested for an error. -/
def next : RP Token := fun ts r =>
  let s := r.scan (stream ts)
  if r.unscanned = 0 ∧ s.1 = .error false then error ts s.2 else .ok s.1 s.2

/-- parser/parser.go:99-110 `unscan`. The panic is no error, so `Parse` does not recover. -/
def unscan : RP Unit := fun _ r =>
  match r.unscan with
  | .ok r => .ok () r
  | _ => .panic

/-- How many tokens have not been read. -/
def left (ts : List Token) (r : Ring) : Nat := ts.length - (r.scanned - r.unscanned)

/-- A loop: `step` returns the new state and whether to go on. -/
def loopFuel {σ : Type} (step : σ → RP (σ × Bool)) : Nat → σ → RP σ
  | 0, _ => stuck
  | n + 1, s => do
    let (s, again) ← step s
    if again then loopFuel step n s else pure s

/-- A loop that takes a token every time it goes on. -/
def loop {σ : Type} (step : σ → RP (σ × Bool)) (s : σ) : RP σ := fun ts r =>
  loopFuel step (left ts r + 1) s ts r

/-- parser/parser.go:137-163 `expectReserved`. -/
def expectReserved (ids : List Identifier) : RP Identifier := do
  let t ← next
  match t with
  | .reserved id => if id ∈ ids then pure id else errorGot
  | _ => errorGot

/-- parser/parser.go:165-177 `optionalReserved`. -/
def optionalReserved (ids : List Identifier) : RP Bool := do
  let t ← next
  match t with
  | .reserved id => if id ∈ ids then pure true else do unscan; pure false
  | _ => do unscan; pure false

/-- `optionalReserved`, with the identifier of the current token. -/
def optionalReservedId (ids : List Identifier) : RP (Option Identifier) := do
  let found ← optionalReserved ids
  if found then some <$> currentId else pure none

/-- `optionalReserved` for one word after the other. -/
def firstReserved : List Identifier → RP (Option Identifier)
  | [] => pure none
  | id :: ids => do
    let found ← optionalReserved [id]
    if found then pure (some id) else firstReserved ids

/-- parser/parser.go:179-185 `expectIdentifier`. -/
def expectIdentifier : RP Identifier := do
  let t ← next
  match t with
  | .identifier id => pure id
  | _ => errorGot

/-- parser/parser.go:187-194 `maybeIdentifier`. -/
def maybeIdentifier (id : Identifier) : RP Bool := do
  let t ← next
  if t = .identifier id then pure true else do unscan; pure false

/-- parser/parser.go:196-220 `expectTokens`. -/
def expectTokens (tokens : List Token) : RP Token := do
  let t ← next
  if t ∈ tokens then pure t else errorGot

/-- parser/parser.go:222-228 `maybeToken`. -/
def maybeToken (mt : Token) : RP Bool := do
  let t ← next
  if t = mt then pure true else do unscan; pure false

/-- parser/parser.go:230-237 `expectInteger`. -/
def expectInteger (min max : Int) : RP (BitVec 64) := do
  let t ← next
  match t with
  | .integer i => if i.toInt < min ∨ i.toInt > max then errorGot else pure i
  | _ => errorGot

/-- parser/parser.go:239-244 `expectEndOfStatement`. -/
def expectEndOfStatement : RP Unit := do
  let t ← next
  if t = .eof ∨ t = .endOfStatement then pure () else errorGot

/-- The loops that end with a closing parenthesis: after `step`, a comma goes on. -/
def closed {σ : Type} (step : σ → RP σ) : σ → RP σ :=
  loop fun s => do
    let s ← step s
    let t ← expectTokens [Tok.comma, Tok.rparen]
    pure (s, t == Tok.comma)

/-- The loops that go on with a comma. -/
def separated {σ : Type} (step : σ → RP σ) : σ → RP σ :=
  loop fun s => do
    let s ← step s
    let again ← maybeToken Tok.comma
    pure (s, again)

/-- A list that ends with a closing parenthesis. -/
def closedList {α : Type} (item : RP α) : RP (List α) :=
  closed (fun l => do let a ← item; pure (l ++ [a])) []

/-- A list that ends with a closing parenthesis, which is tested for first, as in
parser/parser.go:427-433. -/
def untilParen {α : Type} (item : RP α) : RP (List α) :=
  loop (fun l => do
    let a ← item
    let last ← maybeToken Tok.rparen
    if last then pure (l ++ [a], false)
    else do
      let _ ← expectTokens [Tok.comma]
      pure (l ++ [a], true)) []

/-- A list with commas. -/
def separatedList {α : Type} (item : RP α) : RP (List α) :=
  separated (fun l => do let a ← item; pure (l ++ [a])) []

/-- A list of different identifiers that ends with a closing parenthesis, as in
parser/parser.go:1309-1322. -/
def distinctColumns : RP (List Identifier) :=
  closed (fun l => do let nam ← expectIdentifier; if nam ∈ l then error else pure (l ++ [nam])) []

/-- `adjustPrecedence` with enough fuel (see `adj_total` in Lemmas/Adjust.lean). -/
def adjust (e : Expr) : RP Expr := fun _ r =>
  match adjustPrecedence (3 * e.nodes + 1) e with
  | some e => .ok e r
  | none => .stuck

/-- The methods that call each other. -/
structure Parsers where
  /-- `parseSubExpr` -/
  subExpr : RP Expr
  /-- `optionalSubquery` -/
  query : RP (Option Query)
  /-- `parseFromItem` -/
  fromItem : RP FromItem

/-- parser/parser.go:1123-1125 `parseExpr`. -/
def Parsers.expr (p : Parsers) : RP Expr := do
  let e ← p.subExpr
  adjust e

/-- parser/parser.go:1152-1167 `optionalBinaryOp`: the operator and whether it is boolean. -/
def optionalBinaryOp : RP (Option (SqlOp × Bool)) := do
  let t ← next
  match binaryOps.lookup t with
  | some op => pure (some op)
  | none =>
    if t = .reserved Kw.AND then pure (some (.and, true))
    else if t = .reserved Kw.OR then pure (some (.or, true))
    else do unscan; pure none

/-- parser/parser.go:369-379 `parseSchemaName`. -/
def parseSchemaName : RP SchemaName := do
  let id ← expectIdentifier
  let dot ← maybeToken Tok.dot
  if dot then do
    let schema ← expectIdentifier
    pure ⟨id, schema⟩
  else pure ⟨0, id⟩

/-- parser/parser.go:381-394 `parseTableName`. -/
def parseTableName : RP TableName := do
  let id ← expectIdentifier
  let dot ← maybeToken Tok.dot
  if dot then do
    let id2 ← expectIdentifier
    let dot ← maybeToken Tok.dot
    if dot then do
      let id3 ← expectIdentifier
      pure ⟨id, id2, id3⟩
    else pure ⟨0, id, id2⟩
  else pure ⟨0, 0, id⟩

/-- parser/parser.go:396-408 `parseAlias`. -/
def parseAlias (required : Bool) : RP Identifier := do
  let as ← optionalReserved [Kw.AS]
  if as then expectIdentifier
  else do
    let t ← next
    match t with
    | .identifier id => pure id
    | _ => if required then error else do unscan; pure 0

/-- parser/parser.go:410-420 `parseTableAlias`. -/
def parseTableAlias : RP FromItem := do
  let tn ← parseTableName
  let at_ ← maybeToken Tok.atSign
  if at_ then do
    let index ← expectIdentifier
    let alias ← parseAlias false
    pure (.index tn index alias)
  else do
    let alias ← parseAlias false
    pure (.table tn alias)

/-- parser/parser.go:422-436 `parseColumnAliases`. -/
def parseColumnAliases : RP (List Identifier) := do
  let paren ← maybeToken Tok.lparen
  if paren then untilParen expectIdentifier else pure []

/-- parser/parser.go:1290-1298 `parseSubquery`. -/
def Parsers.subquery (p : Parsers) : RP Query := do
  let _ ← expectTokens [Tok.lparen]
  let q ← p.query
  match q with
  | none => error
  | some q => do
    let _ ← expectTokens [Tok.rparen]
    pure q

/-- parser/parser.go:1197-1224: what follows an identifier in an expression. -/
def Parsers.call (p : Parsers) (id : Identifier) : RP Expr := do
  let paren ← maybeToken Tok.lparen
  if paren then do
    let empty ← maybeToken Tok.rparen
    if empty then pure (.call id [])
    else do
      let star ← if id = Kw.COUNT then maybeToken Tok.star else pure false
      if star then do
        let _ ← expectTokens [Tok.rparen]
        pure (.call Kw.COUNT_ALL [])
      else do
        let args ← untilParen p.subExpr
        pure (.call id args)
  else do
    let head ← currentId
    let ids ← loop (fun ids => do
      let dot ← maybeToken Tok.dot
      if dot then do
        let id ← expectIdentifier
        pure (ids ++ [id], true)
      else pure (ids, false)) []
    pure (.ref head ids)

/-- parser/parser.go:1169-1241: the first part of `parseSubExpr`. -/
def Parsers.operand (p : Parsers) : RP Expr := do
  let t ← next
  match t with
  | .reserved id =>
    if id = Kw.TRUE then pure (.lit (some (.bool true)))
    else if id = Kw.FALSE then pure (.lit (some (.bool false)))
    else if id = Kw.NULL then pure (.lit none)
    else if id = Kw.NOT then do
      let e ← p.subExpr
      pure (.unary .not e)
    else if id = Kw.EXISTS then do
      let q ← p.subquery
      pure (.subquery .exists .add none q)
    else error
  | .string s => pure (.lit (some (.str s)))
  | .bytes b => pure (.lit (some (.bytes b)))
  | .integer i => pure (.lit (some (.int i)))
  | .float f => pure (.lit (some (.float f)))
  | .identifier id => p.call id
  | t =>
    if t = Tok.minus then do
      let e ← p.subExpr
      pure (.unary .negate e)
    else if t = Tok.lparen then do
      let q ← p.query
      match q with
      | some q => do
        let _ ← expectTokens [Tok.rparen]
        pure (.subquery .scalar .add none q)
      | none => do
        let e ← p.subExpr
        let _ ← expectTokens [Tok.rparen]
        pure (.unary .noOp e)
    else errorGot

/-- parser/parser.go:1243-1287: the second part of `parseSubExpr`. -/
def Parsers.operator (env : ParseEnv) (p : Parsers) (e : Expr) : RP Expr := do
  let op ← optionalBinaryOp
  match op with
  | none => do
    let id ← optionalReservedId [Kw.IN, Kw.NOT, Kw.IS]
    match id with
    | none => pure e
    | some id =>
      if id = Kw.IN then do
        let q ← p.subquery
        pure (.subquery .any .equal (some e) q)
      else if id = Kw.NOT then do
        let in_ ← optionalReserved [Kw.IN]
        if in_ then do
          let q ← p.subquery
          pure (.subquery .all .notEqual (some e) q)
        else do
          unscan
          pure e
      else do
        let not ← optionalReserved [Kw.NOT]
        let _ ← expectReserved [Kw.NULL]
        let e := Expr.call (env.id (ascii "is_null") false) [e]
        pure (if not then .unary .not e else e)
  | some (op, bool) => do
    let id ← optionalReservedId [Kw.ANY, Kw.SOME, Kw.ALL]
    match id with
    | some id =>
      if bool then do
        let q ← p.subquery
        pure (.subquery (if id = Kw.ALL then .all else .any) op (some e) q)
      else error
    | none => do
      let r ← p.subExpr
      pure (.binary op e r)

/-- parser/parser.go:1169-1288 `parseSubExpr`. -/
def Parsers.stepSubExpr (env : ParseEnv) (p : Parsers) : RP Expr := do
  let e ← p.operand
  p.operator env e

/-- parser/parser.go:1400-1429 `parseValues`. -/
def Parsers.values (p : Parsers) : RP Query := do
  let rows ← separated (fun rows => do
    let _ ← expectTokens [Tok.lparen]
    let row ← closedList p.expr
    match rows with
    | [] => pure [row]
    | row0 :: _ =>
      if row0.length ≠ row.length then error else pure (rows ++ [row])) []
  pure (.values rows)

/-- parser/parser.go:1611-1617 `parseFromList`. -/
def Parsers.fromList (p : Parsers) : RP FromItem := do
  let fi ← p.fromItem
  loop (fun fi => do
    let comma ← maybeToken Tok.comma
    if comma then do
      let r ← p.fromItem
      pure (.join fi r .crossJoin none [], true)
    else pure (fi, false)) fi

/-- parser/parser.go:1450-1472: one item of the list after `SELECT`. -/
def Parsers.result (p : Parsers) : RP SelectResult := do
  let t ← next
  match t with
  | .identifier tbl => do
    let dot ← maybeToken Tok.dot
    if dot then do
      let star ← maybeToken Tok.star
      if star then pure (.table tbl)
      else do
        unscan
        unscan
        let e ← p.expr
        let alias ← parseAlias false
        pure (.expr e alias)
    else do
      unscan
      let e ← p.expr
      let alias ← parseAlias false
      pure (.expr e alias)
  | _ => do
    unscan
    let e ← p.expr
    let alias ← parseAlias false
    pure (.expr e alias)

/-- parser/parser.go:1507-1514: one column after `ORDER BY`. -/
def parseOrderBy : RP (Identifier × Bool) := do
  let id ← expectIdentifier
  let desc ← optionalReserved [Kw.DESC]
  if desc then pure (id, true)
  else do
    let _ ← optionalReserved [Kw.ASC]
    pure (id, false)

/-- An optional clause. -/
def clause {α : Type} (id : Identifier) (m : RP α) : RP (Option α) := do
  let found ← optionalReserved [id]
  if found then do
    let a ← m
    pure (some a)
  else pure none

/-- parser/parser.go:1446-1522 `parseSelect`. -/
def Parsers.select (p : Parsers) : RP Query := do
  let star ← maybeToken Tok.star
  let results ← if star then pure [] else separatedList p.result
  let fromItem ← clause Kw.FROM p.fromList
  let cond ← clause Kw.WHERE p.expr
  let groupBy ← clause Kw.GROUP (do
    let _ ← expectReserved [Kw.BY]
    separatedList p.expr)
  let having ← clause Kw.HAVING p.expr
  let orderBy ← clause Kw.ORDER (do
    let _ ← expectReserved [Kw.BY]
    separatedList parseOrderBy)
  pure (.select results fromItem cond (groupBy.getD []) having (orderBy.getD []))

/-- parser/parser.go:1722-1743 and 1764-1785: `SHOW COLUMNS` and `SHOW CONSTRAINTS`. -/
def showFromTable (env : ParseEnv) (table : Identifier) : RP Query := do
  let _ ← expectReserved [Kw.FROM]
  let tn ← parseTableName
  pure (selectFrom ⟨tn.database, Kw.METADATA, table⟩
    (some (.binary .and
      (.binary .equal (env.name "table_name") (.lit (some (.str (env.string tn.table)))))
      (schemaTest env tn.schema))))

/-- parser/parser.go:1717-1840: `SHOW` and an identifier. -/
def showVariable (env : ParseEnv) (id : Identifier) : RP Query :=
  if id = Kw.COLUMNS then showFromTable env Kw.COLUMNS
  else if id = Kw.CONFIG then
    pure (.select [.expr (env.name "name") 0, .expr (env.name "value") 0, .expr (env.name "by") 0]
      (some (.table ⟨Kw.SYSTEM, Kw.INFO, Kw.CONFIG⟩ 0))
      (some (.binary .equal (env.name "hidden") (.lit (some (.bool false))))) [] none [])
  else if id = Kw.CONSTRAINTS then showFromTable env Kw.CONSTRAINTS
  else if id = Kw.DATABASES then pure (selectFrom ⟨Kw.SYSTEM, Kw.INFO, Kw.DATABASES⟩ none)
  else if id = Kw.SCHEMAS then do
    let db ← clause Kw.FROM expectIdentifier
    pure (selectFrom ⟨db.getD 0, Kw.METADATA, Kw.SCHEMAS⟩ none)
  else if id = Kw.TABLES then do
    let sn ← clause Kw.FROM parseSchemaName
    match sn with
    | some sn =>
      pure (selectFrom ⟨sn.database, Kw.METADATA, Kw.TABLES⟩
        (some (.binary .equal (env.name "schema_name")
          (.lit (some (.str (env.string sn.schema)))))))
    | none =>
      pure (selectFrom ⟨0, Kw.METADATA, Kw.TABLES⟩
        (some (.binary .equal (env.name "schema_name")
          (.subquery .scalar .add none (.show Kw.SCHEMA)))))
  else pure (.show id)

/-- parser/parser.go:1704-1841 `parseShow`. -/
def parseShow (env : ParseEnv) : RP Query := do
  let t ← next
  match t with
  | .reserved id => showVariable env id
  | .identifier id => showVariable env id
  | _ => error

/-- parser/parser.go:999-1016 `optionalSubquery`. -/
def Parsers.stepQuery (env : ParseEnv) (p : Parsers) : RP (Option Query) := do
  let select ← optionalReserved [Kw.SELECT]
  if select then do
    let q ← p.select
    pure (some q)
  else do
    let values ← optionalReserved [Kw.VALUES]
    if values then do
      let q ← p.values
      pure (some q)
    else do
      let show_ ← optionalReserved [Kw.SHOW]
      if show_ then do
        let q ← parseShow env
        pure (some q)
      else do
        let table ← optionalReserved [Kw.TABLE]
        if table then do
          let tn ← parseTableName
          pure (some (selectFrom tn none))
        else pure none

/-- parser/parser.go:1619-1623 `parseFromStmt`. -/
def parseFromStmt (q : Query) : RP FromItem := do
  let _ ← expectTokens [Tok.rparen]
  let alias ← parseAlias true
  let cols ← parseColumnAliases
  pure (.stmt q alias cols)

/-- parser/parser.go:1550-1571: the type of a join, if there is one. -/
def parseJoinType : RP (Option JoinType) := do
  let id ← firstReserved [Kw.JOIN, Kw.INNER, Kw.LEFT, Kw.RIGHT, Kw.FULL, Kw.CROSS]
  match id with
  | none => pure none
  | some id =>
    if id = Kw.JOIN then pure (some .join)
    else if id = Kw.INNER then do
      let _ ← expectReserved [Kw.JOIN]
      pure (some .join)
    else if id = Kw.CROSS then do
      let _ ← expectReserved [Kw.JOIN]
      pure (some .crossJoin)
    else do
      let _ ← optionalReserved [Kw.OUTER]
      let _ ← expectReserved [Kw.JOIN]
      pure (some (if id = Kw.LEFT then .leftJoin
        else if id = Kw.RIGHT then .rightJoin else .fullJoin))

/-- parser/parser.go:1578-1595: the condition of a join. -/
def Parsers.joinCondition (p : Parsers) : RP (Option Expr × List Identifier) := do
  let on ← clause Kw.ON p.expr
  match on with
  | some e => pure (some e, [])
  | none => do
    let cols ← clause Kw.USING (do
      let _ ← expectTokens [Tok.lparen]
      distinctColumns)
    pure (none, cols.getD [])

/-- parser/parser.go:1536-1609 `parseFromItem`. -/
def Parsers.stepFromItem (p : Parsers) : RP FromItem := do
  let paren ← maybeToken Tok.lparen
  let fi ← if paren then (do
      let q ← p.query
      match q with
      | some q => parseFromStmt q
      | none => do
        let fi ← p.fromList
        let _ ← expectTokens [Tok.rparen]
        pure fi)
    else parseTableAlias
  let jt ← parseJoinType
  match jt with
  | none => pure fi
  | some jt => do
    let r ← p.fromItem
    let (on, cols) ← p.joinCondition
    if jt = .crossJoin then
      if on.isSome ∨ cols ≠ [] then error else pure (.join fi r jt on cols)
    else
      if (on.isSome ∧ cols ≠ []) ∨ (on.isNone ∧ cols = []) then error
      else pure (.join fi r jt on cols)

/-- The methods that call each other, `n` calls deep. -/
def parsers (env : ParseEnv) : Nat → Parsers
  | 0 => ⟨stuck, stuck, stuck⟩
  | n + 1 =>
    let p := parsers env n
    ⟨p.stepSubExpr env, p.stepQuery env, p.stepFromItem⟩

/-- parser/parser.go:454-484 `parseKey`. -/
def parseKey (unique : Bool) : RP IndexKey := do
  let _ ← expectTokens [Tok.lparen]
  closed (fun key : IndexKey => do
    let nam ← expectIdentifier
    if nam ∈ key.columns then error
    else do
      let asc ← optionalReserved [Kw.ASC]
      let desc ← if asc then pure false else optionalReserved [Kw.DESC]
      pure { key with columns := key.columns ++ [nam], reverse := key.reverse ++ [desc] })
    ⟨unique, [], []⟩

/-- parser/parser.go:486-504 `parseRefAction`. -/
def parseRefAction : RP RefAction := do
  let id ← expectReserved [Kw.NO, Kw.RESTRICT, Kw.CASCADE, Kw.SET]
  if id = Kw.NO then do
    let _ ← expectReserved [Kw.ACTION]
    pure .noAction
  else if id = Kw.RESTRICT then pure .restrict
  else if id = Kw.CASCADE then pure .cascade
  else do
    let id ← expectReserved [Kw.NULL, Kw.DEFAULT]
    pure (if id = Kw.NULL then .setNull else .setDefault)

/-- parser/parser.go:506-525 `parseOnActions`: the actions on delete and on update. -/
def parseOnActions : RP (Option RefAction × Option RefAction) :=
  loop (fun s : Option RefAction × Option RefAction => do
    let on ← optionalReserved [Kw.ON]
    if on then do
      let id ← expectReserved [Kw.DELETE, Kw.UPDATE]
      if id = Kw.DELETE then
        if s.1.isSome then error
        else do
          let a ← parseRefAction
          pure ((some a, s.2), true)
      else
        if s.2.isSome then error
        else do
          let a ← parseRefAction
          pure ((s.1, some a), true)
    else pure (s, false)) (none, none)

/-- parser/parser.go:527-559 `parseForeignKey`. -/
def parseForeignKey (cn : Identifier) : RP ForeignKey := do
  let _ ← expectTokens [Tok.lparen]
  let cols ← untilParen expectIdentifier
  let _ ← expectReserved [Kw.REFERENCES]
  let rtn ← parseTableName
  let paren ← maybeToken Tok.lparen
  let refCols ← if paren then untilParen expectIdentifier else pure []
  let (onDelete, onUpdate) ← parseOnActions
  pure ⟨cn, cols, rtn, refCols, onDelete.getD .noAction, onUpdate.getD .noAction⟩

/-- parser/parser.go:702-727 `addKeyConstraint`. -/
def addKeyConstraint (s : CreateTable) (ct : ConstraintType) (cn : Identifier) (key : IndexKey) :
    RP CreateTable :=
  if s.constraints.any (fun c => c.name == cn || (c.type == .primary && ct == .primary)) then error
  else
    match anyEqualKey key s.constraints with
    | .ok false => pure { s with constraints := s.constraints ++ [⟨ct, cn, -1, key, none⟩] }
    | .ok true => error
    | _ => crash

/-- parser/parser.go:729-746 `addColumnConstraint`. -/
def addColumnConstraint (s : CreateTable) (ct : ConstraintType) (cn : Identifier) (colNum : Nat) :
    RP CreateTable :=
  if s.constraints.any (fun c => c.name == cn || (c.colNum == (colNum : Int) && c.type == ct))
  then error
  else pure { s with constraints := s.constraints ++ [⟨ct, cn, colNum, .zero, none⟩] }

/-- parser/parser.go:643-687 `parseColumnType`. -/
def parseColumnType : RP ColumnType := do
  let typ ← expectIdentifier
  match columnTypes.lookup typ with
  | none => error
  | some ct => do
    let _ ← if typ = Kw.DOUBLE then maybeIdentifier Kw.PRECISION else pure false
    if ct.type = .string ∨ ct.type = .bytes then do
      let paren ← maybeToken Tok.lparen
      if paren then do
        let i ← expectInteger 0 maxColumnSize
        let _ ← expectTokens [Tok.rparen]
        pure { ct with size := BitVec.setWidth 32 i }
      else pure ct
    else pure ct

/-- `CONSTRAINT` and a name, or 0. -/
def parseConstraintName : RP Identifier := do
  let cn ← clause Kw.CONSTRAINT expectIdentifier
  pure (cn.getD 0)

/-- parser/parser.go:773-850: one turn of the loop in `parseColumn`. -/
def Parsers.columnConstraint (env : ParseEnv) (p : Parsers) (nam : Identifier) (st : ColumnState) :
    RP (ColumnState × Bool) := do
  let cn ← parseConstraintName
  let colNum := st.s.columns.length - 1
  let id ← firstReserved
    [Kw.DEFAULT, Kw.NOT, Kw.PRIMARY, Kw.UNIQUE, Kw.CHECK, Kw.REFERENCES]
  match id with
  | none => if cn ≠ 0 then error else pure (st, false)
  | some id =>
    if id = Kw.DEFAULT then
      if st.dflt.isSome then error
      else do
        let s ← if cn ≠ 0 then addColumnConstraint st.s .default cn colNum else pure st.s
        let e ← p.expr
        pure ({ st with s := s, dflt := some e }, true)
    else if id = Kw.NOT then do
      let _ ← expectReserved [Kw.NULL]
      if st.ct.notNull then error
      else do
        let s ← if cn ≠ 0 then addColumnConstraint st.s .notNull cn colNum else pure st.s
        pure ({ st with s := s, ct := { st.ct with notNull := true } }, true)
    else if id = Kw.PRIMARY then do
      let _ ← expectReserved [Kw.KEY]
      let cn := if cn = 0 then env.id (env.string nam ++ ascii "_primary") false else cn
      let s ← addKeyConstraint st.s .primary cn ⟨true, [nam], [false]⟩
      pure ({ st with s := s }, true)
    else if id = Kw.UNIQUE then do
      let cn := if cn = 0 then env.id (env.string nam ++ ascii "_unique") false else cn
      let s ← addKeyConstraint st.s .unique cn ⟨true, [nam], [false]⟩
      pure ({ st with s := s }, true)
    else if id = Kw.CHECK then do
      let _ ← expectTokens [Tok.lparen]
      let e ← p.expr
      let _ ← expectTokens [Tok.rparen]
      let c : Constraint := ⟨.check, cn, colNum, .zero, some e⟩
      pure ({ st with s := { st.s with constraints := st.s.constraints ++ [c] } }, true)
    else do
      let rtn ← parseTableName
      let paren ← maybeToken Tok.lparen
      let refCols ← if paren then (do
          let col ← expectIdentifier
          let _ ← expectTokens [Tok.rparen]
          pure [col])
        else pure []
      let (onDelete, onUpdate) ← parseOnActions
      let fk : ForeignKey :=
        ⟨cn, [nam], rtn, refCols, onDelete.getD .noAction, onUpdate.getD .noAction⟩
      pure ({ st with s := { st.s with foreignKeys := st.s.foreignKeys ++ [fk] } }, true)

/-- parser/parser.go:748-854 `parseColumn`. -/
def Parsers.column (env : ParseEnv) (p : Parsers) (s : CreateTable) : RP CreateTable := do
  let nam ← expectIdentifier
  if nam ∈ s.columns then error
  else do
    let s := { s with columns := s.columns ++ [nam] }
    let ct ← parseColumnType
    let st ← loop (p.columnConstraint env nam) ⟨s, ct, none⟩
    pure { st.s with
      columnTypes := st.s.columnTypes ++ [st.ct]
      columnDefaults := st.s.columnDefaults ++ [st.dflt] }

/-- parser/parser.go:577-615: one turn of the loop in `parseCreateDetails`. -/
def Parsers.createDetail (env : ParseEnv) (p : Parsers) (s : CreateTable) : RP CreateTable := do
  let cn ← parseConstraintName
  let id ← firstReserved [Kw.PRIMARY, Kw.UNIQUE, Kw.CHECK, Kw.FOREIGN]
  match id with
  | none => if cn ≠ 0 then error else p.column env s
  | some id =>
    if id = Kw.PRIMARY then do
      let _ ← expectReserved [Kw.KEY]
      let key ← parseKey true
      addKeyConstraint s .primary (makeKeyConstraintName env cn key.columns "primary") key
    else if id = Kw.UNIQUE then do
      let key ← parseKey true
      addKeyConstraint s .unique (makeKeyConstraintName env cn key.columns "unique") key
    else if id = Kw.CHECK then do
      let _ ← expectTokens [Tok.lparen]
      let e ← p.expr
      let _ ← expectTokens [Tok.rparen]
      pure { s with constraints := s.constraints ++ [⟨.check, cn, -1, .zero, some e⟩] }
    else do
      let _ ← expectReserved [Kw.KEY]
      let fk ← parseForeignKey cn
      pure { s with foreignKeys := s.foreignKeys ++ [fk] }

/-- `IF NOT EXISTS`. -/
def parseIfNotExists : RP Bool := do
  let found ← clause Kw.IF (do
    let _ ← expectReserved [Kw.NOT]
    expectReserved [Kw.EXISTS])
  pure found.isSome

/-- `IF EXISTS`. -/
def parseIfExists : RP Bool := do
  let found ← clause Kw.IF (expectReserved [Kw.EXISTS])
  pure found.isSome

/-- parser/parser.go:438-452 `parseCreateTable`, with `parseCreateDetails` (561-616). -/
def Parsers.createTable (env : ParseEnv) (p : Parsers) : RP CreateTable := do
  let ifNotExists ← parseIfNotExists
  let table ← parseTableName
  let _ ← expectTokens [Tok.lparen]
  closed (p.createDetail env) ⟨table, [], [], [], ifNotExists, [], []⟩

/-- parser/parser.go:873-918: one action of `parseAlterTable`. -/
def parseAlterAction : RP AlterAction := do
  let id ← expectReserved [Kw.ADD, Kw.DROP, Kw.ALTER]
  if id = Kw.ADD then do
    let cn ← parseConstraintName
    let _ ← expectReserved [Kw.FOREIGN]
    let _ ← expectReserved [Kw.KEY]
    let fk ← parseForeignKey cn
    pure (.addForeignKey fk)
  else if id = Kw.DROP then do
    let _ ← expectReserved [Kw.CONSTRAINT]
    let ifExists ← parseIfExists
    let name ← expectIdentifier
    pure (.dropConstraint name ifExists 0 .none)
  else do
    let _ ← optionalReserved [Kw.COLUMN]
    let nam ← expectIdentifier
    let _ ← expectReserved [Kw.DROP]
    let id ← expectReserved [Kw.DEFAULT, Kw.NOT]
    if id = Kw.DEFAULT then pure (.dropConstraint 0 false nam .default)
    else do
      let _ ← expectReserved [Kw.NULL]
      pure (.dropConstraint 0 false nam .notNull)

/-- parser/parser.go:856-926 `parseAlterTable`. -/
def parseAlterTable : RP Stmt := do
  let table ← parseTableName
  let actions ← separatedList parseAlterAction
  pure (.alterTable table actions)

/-- parser/parser.go:928-951 `parseCreateIndex`. -/
def parseCreateIndex (unique : Bool) : RP Stmt := do
  let ifNotExists ← parseIfNotExists
  let index ← expectIdentifier
  let _ ← expectReserved [Kw.ON]
  let table ← parseTableName
  let using_ ← clause Kw.USING expectIdentifier
  if using_.isSome ∧ using_ ≠ some Kw.BTREE then error
  else do
    let key ← parseKey unique
    pure (.createIndex index table key ifNotExists)

/-- parser/parser.go:953-962 `parseDelete`. -/
def Parsers.delete (p : Parsers) : RP Stmt := do
  let table ← parseTableName
  let cond ← clause Kw.WHERE p.expr
  pure (.delete table cond)

/-- parser/parser.go:964-984 `parseDropTable`. -/
def parseDropTable : RP Stmt := do
  let ifExists ← parseIfExists
  let tables ← separatedList parseTableName
  let cascade ← optionalReserved [Kw.CASCADE]
  let _ ← if cascade then pure false else optionalReserved [Kw.RESTRICT]
  pure (.dropTable ifExists cascade tables)

/-- parser/parser.go:986-997 `parseDropIndex`. -/
def parseDropIndex : RP Stmt := do
  let ifExists ← parseIfExists
  let index ← expectIdentifier
  let _ ← expectReserved [Kw.ON]
  let table ← parseTableName
  pure (.dropIndex table index ifExists)

/-- `DEFAULT` or an expression: parser/parser.go:1332-1338 and 1635-1641. -/
def Parsers.exprOrDefault (p : Parsers) : RP (Option Expr) := do
  let dflt ← optionalReserved [Kw.DEFAULT]
  if dflt then pure none
  else do
    let e ← p.expr
    pure (some e)

/-- `'('`, different columns and `')'`, or nothing: parser/parser.go:1309-1323 and 1364-1378. -/
def parseColumns : RP (List Identifier) := do
  let paren ← maybeToken Tok.lparen
  if paren then distinctColumns else pure []

/-- parser/parser.go:1300-1353 `parseInsert`. -/
def Parsers.insert (p : Parsers) : RP Stmt := do
  let table ← parseTableName
  let columns ← parseColumns
  let _ ← expectReserved [Kw.VALUES]
  let rows ← separatedList (do
    let _ ← expectTokens [Tok.lparen]
    closedList p.exprOrDefault)
  pure (.insert table columns rows)

/-- parser/parser.go:1355-1398 `parseCopy`. -/
def parseCopy : RP Stmt := do
  let table ← parseTableName
  let columns ← parseColumns
  let _ ← expectReserved [Kw.FROM]
  let id ← expectIdentifier
  if id ≠ Kw.STDIN then error
  else do
    let delimiter ← clause Kw.DELIMITER (do
      let t ← next
      match t with
      | .string [b] => pure b.toNat
      | _ => error)
    pure (.copy table columns [] (delimiter.getD 9))

/-- parser/parser.go:1625-1653 `parseUpdate`. -/
def Parsers.update (p : Parsers) : RP Stmt := do
  let table ← parseTableName
  let _ ← expectReserved [Kw.SET]
  let updates ← separatedList (do
    let column ← expectIdentifier
    let _ ← expectTokens [Tok.equal]
    let e ← p.exprOrDefault
    pure (column, e))
  let cond ← clause Kw.WHERE p.expr
  pure (.update table updates cond)

/-- parser/parser.go:1669-1678 and 1847-1856: the value of a variable. A method of a nil value
panics. -/
def Parsers.settingValue (env : ParseEnv) (p : Parsers) : RP Bytes := do
  let e ← p.expr
  match e with
  | .lit (some (.str s)) => pure s
  | .lit (some v) => pure (env.valueString v)
  | .lit none => crash
  | _ => error

/-- parser/parser.go:1655-1681 `parseSet`. -/
def Parsers.set (env : ParseEnv) (p : Parsers) : RP Stmt := do
  let id ← firstReserved [Kw.DATABASE, Kw.SCHEMA]
  let var ← match id with
    | some id => pure id
    | none => expectIdentifier
  let equal ← maybeToken Tok.equal
  let _ ← if equal then pure 0 else expectReserved [Kw.TO]
  let value ← p.settingValue env
  pure (.set var value)

/-- parser/parser.go:1843-1859 `parseUse`. -/
def Parsers.use (env : ParseEnv) (p : Parsers) : RP Stmt := do
  let value ← p.settingValue env
  pure (.set Kw.DATABASE value)

/-- parser/parser.go:1861-1895 `parseOptions`. -/
def parseOptions (env : ParseEnv) : RP (List (Identifier × Bytes)) := do
  let options ← loop (fun options => do
    let t ← next
    match t with
    | .identifier opt => do
      let _ ← maybeToken Tok.equal
      let t ← next
      match t with
      | .identifier id => pure (setOption options opt (env.string id), true)
      | .string s => pure (setOption options opt s, true)
      | .bytes b => pure (setOption options opt b, true)
      | .integer i => pure (setOption options opt (formatInt i.toInt), true)
      | .float f => pure (setOption options opt (env.formatFloatG f), true)
      | _ => error
    | _ => do
      unscan
      pure (options, false)) []
  if options = [] then error else pure options

/-- parser/parser.go:1897-1907 `parseCreateDatabase`. -/
def parseCreateDatabase (env : ParseEnv) : RP Stmt := do
  let database ← expectIdentifier
  let options ← clause Kw.WITH (parseOptions env)
  pure (.createDatabase database (options.getD []))

/-- parser/parser.go:1909-1920 `parseDropDatabase`. -/
def parseDropDatabase : RP Stmt := do
  let ifExists ← parseIfExists
  let database ← expectIdentifier
  pure (.dropDatabase ifExists database)

/-- parser/parser.go:1930-1941 `parseDropSchema`. -/
def parseDropSchema : RP Stmt := do
  let ifExists ← parseIfExists
  let schema ← parseSchemaName
  pure (.dropSchema ifExists schema)

/-- parser/parser.go:1943-1955 `parseExplain`. -/
def Parsers.explain (p : Parsers) : RP Stmt := do
  let verbose ← optionalReserved [Kw.VERBOSE]
  let _ ← expectReserved [Kw.SELECT]
  let q ← p.select
  pure (.explain q verbose)

/-- parser/parser.go:285-303: `CREATE`. -/
def Parsers.create (env : ParseEnv) (p : Parsers) : RP Stmt := do
  let id ← expectReserved [Kw.DATABASE, Kw.INDEX, Kw.SCHEMA, Kw.TABLE, Kw.UNIQUE]
  if id = Kw.DATABASE then parseCreateDatabase env
  else if id = Kw.INDEX then parseCreateIndex false
  else if id = Kw.SCHEMA then do
    let schema ← parseSchemaName
    pure (.createSchema schema)
  else if id = Kw.TABLE then do
    let s ← p.createTable env
    pure (.createTable s)
  else do
    let _ ← expectReserved [Kw.INDEX]
    parseCreateIndex true

/-- parser/parser.go:308-322: `DROP`. -/
def parseDrop : RP Stmt := do
  let id ← expectReserved [Kw.DATABASE, Kw.INDEX, Kw.SCHEMA, Kw.TABLE]
  if id = Kw.DATABASE then parseDropDatabase
  else if id = Kw.INDEX then parseDropIndex
  else if id = Kw.SCHEMA then parseDropSchema
  else parseDropTable

/-- parser/parser.go:277-366: the statement after its first keyword. -/
def Parsers.afterKeyword (env : ParseEnv) (p : Parsers) (id : Identifier) : RP (Option Stmt) :=
  if id = Kw.ALTER then do
    let _ ← expectReserved [Kw.TABLE]
    some <$> parseAlterTable
  else if id = Kw.BEGIN then pure (some .begin)
  else if id = Kw.COMMIT then pure (some .commit)
  else if id = Kw.COPY then some <$> parseCopy
  else if id = Kw.CREATE then some <$> p.create env
  else if id = Kw.DELETE then do
    let _ ← expectReserved [Kw.FROM]
    some <$> p.delete
  else if id = Kw.DROP then some <$> parseDrop
  else if id = Kw.EXPLAIN then some <$> p.explain
  else if id = Kw.INSERT then do
    let _ ← expectReserved [Kw.INTO]
    some <$> p.insert
  else if id = Kw.ROLLBACK then pure (some .rollback)
  else if id = Kw.SELECT then (fun q => some (.query q)) <$> p.select
  else if id = Kw.SET then some <$> p.set env
  else if id = Kw.SHOW then (fun q => some (.query q)) <$> parseShow env
  else if id = Kw.START then do
    let _ ← expectReserved [Kw.TRANSACTION]
    pure (some .begin)
  else if id = Kw.UPDATE then some <$> p.update
  else if id = Kw.USE then some <$> p.use env
  else if id = Kw.VALUES then (fun q => some (.query q)) <$> p.values
  else pure none

/-- parser/parser.go:246-367 `parseStmt`. `none` is the nil statement. -/
def Parsers.stmt (env : ParseEnv) (p : Parsers) : RP (Option Stmt) := do
  let empty ← maybeToken .endOfStatement
  if empty then pure none
  else do
    let id ← expectReserved stmtKeywords
    p.afterKeyword env id

/-- parser/parser.go:65-67: a statement and its end. -/
def Parsers.stmtEnd (env : ParseEnv) (p : Parsers) : RP (Option Stmt) := do
  let s ← p.stmt env
  expectEndOfStatement
  pure s

/-- `parseStmt` and `expectEndOfStatement` with enough fuel. -/
def parseStmtEnd (env : ParseEnv) : RP (Option Stmt) := fun ts r =>
  (parsers env (left ts r + 1)).stmtEnd env ts r

/-- parser/parser.go:1018-1031 `ParseExpr`, with enough fuel. -/
def parseExpr (env : ParseEnv) : RP Expr := fun ts r => (parsers env (left ts r + 1)).expr ts r

/-- parser/parser.go:76-89 `scanRune`: the token, or none for an error. -/
def scanRune (ts : List Token) (r : Ring) : Option Token × Ring :=
  let s := r.scan (stream ts)
  (if r.unscanned = 0 ∧ s.1 = .error false then none else some s.1, s.2)

/-- parser/parser.go:42-54: skip the rest of a statement that failed, with fuel. `none`: there is a
statement to parse. -/
def skipStatement (ts : List Token) : Nat → Ring → Option Parsed × Ring
  | 0, r => (some .stuck, r)
  | n + 1, r =>
    match scanRune ts r with
    | (none, r) => (some .error, r)
    | (some .eof, r) => (some .eof, r)
    | (some .endOfStatement, r) => (none, r)
    | (some _, r) => skipStatement ts n r

/-- parser/parser.go:56-69: the last part of `Parse`. -/
def parseRecover (env : ParseEnv) (ts : List Token) (r : Ring) : Parsed × Bool × Ring :=
  match parseStmtEnd env ts r with
  | .ok s r => (.stmt s, false, r)
  | .fail ended r => (.error, !ended, r)
  | .panic => (.panic, false, r)
  | .stuck => (.stuck, false, r)

/-- parser/parser.go:33-70 `Parse`. `failed` is the field of the parser; the result has its new
value and the ring. -/
def parse (env : ParseEnv) (ts : List Token) (failed : Bool) (r : Ring) : Parsed × Bool × Ring :=
  match scanRune ts r with
  | (none, r) => (.error, failed, r)
  | (some .eof, r) => (.eof, failed, r)
  | (some _, r) =>
    match r.unscan with
    | .ok r =>
      if failed then
        match skipStatement ts (left ts r + 1) r with
        | (some p, r) => (p, true, r)
        | (none, r) => parseRecover env ts r
      else parseRecover env ts r
    | _ => (.panic, failed, r)

/-- The field `failed` and the ring after `k` calls of `Parse`. -/
def afterCalls (env : ParseEnv) (ts : List Token) : Nat → Bool × Ring
  | 0 => (false, Ring.new)
  | k + 1 => (parse env ts (afterCalls env ts k).1 (afterCalls env ts k).2).2

/-- What call number `k` of `Parse` returns. -/
def parsedAt (env : ParseEnv) (ts : List Token) (k : Nat) : Parsed :=
  (parse env ts (afterCalls env ts k).1 (afterCalls env ts k).2).1

end RP
end Maho
