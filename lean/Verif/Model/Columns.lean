import Verif.Model.Rows
import Verif.Model.Key
/-
Model of testutil/parse.go:275-452, identifiers and columns.

As in Model/Rows.lean the input is a list of runes, and a panic with an error, which
`ParseIdentifier`, `ParseIdentifiers` and `ParseColumns` recover from, is `none`.
-/
namespace Maho

/-- testutil/parse.go:275-277 `identifierRune`. -/
def identifierRune (env : ScanEnv) (r : Nat) : Bool :=
  env.letter r || env.digit r || r == 95 || r == 36

/-- testutil/parse.go:279-286 `expectIdentifier`, and with 300-313 `ParseIdentifier`. -/
def readIdentifier (env : RowEnv) (input : List Nat) : Option (Identifier × List Nat) := do
  let (r, rest) ← skipBlank input
  if identifierRune env.toScanEnv r = false then none
  else
    let (s, rest) ← readRunes (identifierRune env.toScanEnv) true rest
    pure (env.id (builtString (firstRune r ++ s)) false, rest)

/-- testutil/parse.go:288-298 `optionalIdentifier`. -/
def optionalIdentifier (env : RowEnv) (input : List Nat) :
    Option (Option Identifier × List Nat) :=
  match skipBlank input with
  | none => some (none, [])
  | some (r, rest) =>
    if identifierRune env.toScanEnv r = false then some (none, r :: rest)
    else do
      let (s, rest) ← readRunes (identifierRune env.toScanEnv) true rest
      pure (some (env.id (builtString (firstRune r ++ s)) false), rest)

/-- testutil/parse.go:317-323: the loop of `parseIdentifiers`. A pass reads at least one rune. -/
def readIdentifiersLoop (env : RowEnv) : Nat → List Nat → Option (List Identifier)
  | 0, _ => none
  | fuel + 1, input => do
    let (id, rest) ← readIdentifier env input
    match skipBlank rest with
    | none => pure [id]
    | some (r, rest) =>
      if r ≠ 44 then none
      else
        let ids ← readIdentifiersLoop env fuel rest
        pure (id :: ids)

/-- testutil/parse.go:315-341 `parseIdentifiers` and `ParseIdentifiers`. -/
def readIdentifiers (env : RowEnv) (input : List Nat) : Option (List Identifier) :=
  readIdentifiersLoop env input.length input

/-- testutil/parse.go:343-364 `parseOptionalSize`; `uint32(i)` truncates. -/
def readOptionalSize (env : RowEnv) (input : List Nat) : Option (Option (BitVec 32) × List Nat) :=
  match skipBlank input with
  | none => some (none, [])
  | some (r, rest) =>
    if r ≠ 40 then some (none, r :: rest)
    else do
      let (r, rest) ← skipBlank rest
      if env.digit r = false then none
      else
        let (s, rest) ← readRunes env.digit true rest
        let i ← parseInt64 (builtString (firstRune r ++ s))
        let (r, rest) ← skipBlank rest
        if r ≠ 41 then none else pure (some (BitVec.setWidth 32 i), rest)

/-- testutil/parse.go:387-407: the words after the type of column number `num`. A pass that does not
end the loop reads at least one rune. -/
def readColumnWords (env : RowEnv) (num : ColumnNum) :
    Nat → ColumnType → List ColumnKey → List Nat → Option (ColumnType × List ColumnKey × List Nat)
  | 0, _, _, _ => none
  | fuel + 1, ct, key, input => do
    let (id, rest) ← optionalIdentifier env input
    match id with
    | none => pure (ct, key, rest)
    | some id =>
      if id = Kw.PRIMARY then
        let (id, rest) ← readIdentifier env rest
        if id ≠ Kw.KEY then none
        else readColumnWords env num fuel ct (key ++ [makeColumnKey num false]) rest
      else if id = Kw.NOT then
        let (id, rest) ← readIdentifier env rest
        if id ≠ Kw.NULL then none
        else readColumnWords env num fuel { ct with notNull := true } key rest
      else none

/-- testutil/parse.go:375-385: the type of a column. -/
def readType (env : RowEnv) (input : List Nat) : Option (ColumnType × List Nat) := do
  let (typ, rest) ← readIdentifier env input
  let ct ← columnTypes.lookup typ
  if ct.type = .string ∨ ct.type = .bytes then
    let (sz, rest) ← readOptionalSize env rest
    match sz with
    | some sz => pure ({ ct with size := sz }, rest)
    | none => pure (ct, rest)
  else pure (ct, rest)

/-- testutil/parse.go:372-408: one column, number `num`, up to its end. -/
def readColumn (env : RowEnv) (num : ColumnNum) (key : List ColumnKey) (input : List Nat) :
    Option (Identifier × ColumnType × List ColumnKey × List Nat) := do
  let (col, rest) ← readIdentifier env input
  let (ct, rest) ← readType env rest
  let (ct, key, rest) ← readColumnWords env num (rest.length + 1) ct key rest
  pure (col, ct, key, rest)

/-- testutil/parse.go:372-413: the loop of `parseColumns`. A pass reads at least one rune. -/
def readColumnsLoop (env : RowEnv) : Nat → List Identifier → List ColumnType → List ColumnKey →
    List Nat → Option (List Identifier × List ColumnType × List ColumnKey)
  | 0, _, _, _, _ => none
  | fuel + 1, cols, colTypes, key, input => do
    let (col, ct, key, rest) ← readColumn env (BitVec.ofNat 32 cols.length) key input
    match skipBlank rest with
    | none => pure (cols ++ [col], colTypes ++ [ct], key)
    | some (r, rest) =>
      if r ≠ 44 then none
      else readColumnsLoop env fuel (cols ++ [col]) (colTypes ++ [ct]) key rest

/-- testutil/parse.go:366-434 `parseColumns` and `ParseColumns`. -/
def readColumns (env : RowEnv) (input : List Nat) :
    Option (List Identifier × List ColumnType × List ColumnKey) :=
  readColumnsLoop env input.length [] [] [] input

end Maho
