import Verif.Lemmas.Messages
import Verif.Props.RingParse
/-
C90: messages about a token say what was expected and which token was found (parser/parser.go:112-244).
-/
namespace Maho
open Spec Msg

/-- `asciiParse` with quotes around strings, for the examples. -/
def asciiMessages : MessageEnv :=
  { asciiParse with
    quote := fun s => 34#8 :: (s ++ [34#8])
    errorText := ascii "unexpected rune"
    quote_inj := by simp }

/-- The tokens of a text. -/
def tokens90 (s : String) : Nat → Token :=
  RP.stream (tokenize asciiParse.toScanEnv (runes s))

/-- What `scan` returns after as many calls of `scan`. -/
def found90 (s : String) (k : Nat) : Option ScanCtx :=
  match CtxRing.new.after (tokens90 s) (List.replicate k .scan) with
  | .ok r => some (r.scan (tokens90 s)).1
  | _ => none

/-- The message about that token. -/
def message90 (s : String) (k : Nat) (w : Wanted) : Option (Res (Option Bytes)) :=
  (found90 s k).map fun c => w.message asciiMessages c

/-- However the parser has gone forwards and back, by at most three tokens, `scan` returns the token
where it stands. Its field `String` has the text of the token, if it is a string, and otherwise that of
the last string among the tokens three, six, nine and so on before it. -/
theorem C90_found (stream : Nat → Token) (calls : List RingCall) (h : Near 0 0 calls) :
    ∃ r, CtxRing.new.after stream calls = .ok r ∧
      (r.scan stream).1.token = stream (placeAfter 0 calls) ∧
      Own (r.scan stream).1 ∧
      ∀ s, LeftOver stream (placeAfter 0 calls) s ↔ (r.scan stream).1.string = s := by
  obtain ⟨r, e, hr⟩ := after_holds (stream := stream) calls _ _ (CtxHolds.new stream) h
  obtain ⟨⟨h1, h2⟩, -⟩ := hr.scan
  refine ⟨r, e, h1, fun s hs => leftOver_own h2 (h1 ▸ hs), fun s => ⟨fun hs => leftOver_unique h2 hs, ?_⟩⟩
  rintro rfl
  exact h2

example : Near 0 0 [.scan, .scan, .unscan, .unscan, .scan, .scan, .scan, .unscan] := by
  simp [Near]

example : (found90 "VALUES ('ab', 'cd')" 2).map (·.token) = some (.string (ascii "ab")) ∧
    (found90 "VALUES ('ab', 'cd')" 2).map (·.string) = some (ascii "ab") ∧
    (found90 "VALUES ('ab', 'cd')" 5).map (·.string) = some (ascii "ab") ∧
    (found90 "VALUES ('ab', 'cd')" 4).map (·.string) = some (ascii "cd") ∧
    (found90 "VALUES ('ab', 'cd')" 3).map (·.string) = some [] := by
  decide +kernel

/-- The methods of the parser do what their messages tell: they return what is taken of the token they
read, and there is an error exactly when there is a message, also for tokens that are read again. They
panic for a token with a nil error. An error of the scanner is returned by itself. -/
theorem C90_methods (env : MessageEnv) (ts : List Token) (r : CtxRing)
    (h : ¬ (r.unscanned = 0 ∧ (r.scan (RP.stream ts)).1.token = .error false)) :
    let c := (r.scan (RP.stream ts)).1
    let r' := (r.scan (RP.stream ts)).2
    (∀ ids, RP.expectReserved ids ts (bareRing r) = readOutcome r' c (reservedOf env ids c)) ∧
    (∀ text, RP.expectIdentifier ts (bareRing r) = readOutcome r' c (identifierOf env text c)) ∧
    (∀ tokens, RP.expectTokens tokens ts (bareRing r) = readOutcome r' c (tokenOf env tokens c)) ∧
    (∀ min max, RP.expectInteger min max ts (bareRing r) = readOutcome r' c (integerOf env min max c)) ∧
    RP.expectEndOfStatement ts (bareRing r) = readOutcome r' c (endOf env c) := by
  have hc := scan_current (RP.stream ts) r
  have n1 := fun f : Token → RP Identifier => next_bind h f
  have n2 := fun f : Token → RP Token => next_bind h f
  have n3 := fun f : Token → RP (BitVec 64) => next_bind h f
  have n4 := fun f : Token → RP Unit => next_bind h f
  generalize r.scan (RP.stream ts) = p at hc n1 n2 n3 n4
  obtain ⟨⟨t, x⟩, r'⟩ := p
  refine ⟨fun ids => (n1 _).trans ?_, fun text => (n1 _).trans ?_, fun tokens => (n2 _).trans ?_,
    fun min max => (n3 _).trans ?_, (n4 _).trans ?_⟩
  · cases t with
    | reserved id =>
      simp only [reservedOf]
      split
      · rfl
      · exact errorGot_eq env ts r' _ hc _
    | _ => exact errorGot_eq env ts r' _ hc _
  · cases t with
    | identifier id => rfl
    | _ => exact errorGot_eq env ts r' _ hc _
  · simp only [tokenOf]
    split
    · rfl
    · exact errorGot_eq env ts r' _ hc _
  · cases t with
    | integer i =>
      simp only [integerOf]
      split
      · exact errorGot_eq env ts r' _ hc _
      · rfl
    | _ => exact errorGot_eq env ts r' _ hc _
  · simp only [endOf]
    split
    · rfl
    · exact errorGot_eq env ts r' _ hc _

example : ¬ (CtxRing.new.unscanned = 0 ∧
    (CtxRing.new.scan (RP.stream [.rune 40])).1.token = .error false) := by decide

/-- There is a message exactly when the token is none of those that are taken; it has what was
expected, as a list in English, and then the text for the token. -/
theorem C90_expected (env : MessageEnv) (w : Wanted) (hw : w.Usual) (c : ScanCtx) :
    (w.Takes c.token → w.message env c = .ok none) ∧
    (¬ w.Takes c.token → c.token = .error true → w.message env c = .panic) ∧
    (¬ w.Takes c.token → c.token ≠ .error true → ∃ g, got env c = .ok g ∧
      w.message env c = .ok (some (w.expected env.toParseEnv ++ g))) := by
  refine ⟨message_takes env c w, fun h he => ?_, fun h he => ?_⟩
  · rw [message_refuses env c w hw h]
    unfold got
    rw [he]
    rfl
  · obtain ⟨g, hg⟩ := got_ok env he
    refine ⟨g, hg, ?_⟩
    rw [message_refuses env c w hw h, hg]

example : Wanted.Usual (.runes [44, 41]) ∧ Wanted.Usual (.keyword [Kw.TABLE]) ∧
    Wanted.Usual (.identifier (ascii "expected a table")) := by
  refine ⟨by simp [Wanted.Usual], ⟨by simp, ?_⟩, ⟨"expected a table", by decide, rfl⟩⟩
  intro id hid
  cases List.mem_singleton.1 hid
  exact ⟨("TABLE", Kw.TABLE), by decide +kernel, rfl, by decide⟩

example : message90 "CREATE TABLE t (c INT d)" 6 (.runes [44, 41]) =
      some (.ok (some (ascii "expected rune ,, or rune ), got identifier d"))) ∧
    message90 "DROP FROM" 1 (.keyword [Kw.DATABASE, Kw.INDEX, Kw.SCHEMA, Kw.TABLE]) =
      some (.ok (some (ascii
        "expected keyword DATABASE, INDEX, SCHEMA, or TABLE; got reserved identifier FROM"))) ∧
    message90 "DROP TABLE 12" 2 (.identifier (ascii "expected a table")) =
      some (.ok (some (ascii "expected a table, got integer 12"))) ∧
    message90 "COMMIT 'a'" 1 .ended =
      some (.ok (some (ascii "expected the end of the statement, got string \"a\""))) ∧
    message90 "CHAR(;" 2 (.number 0 7) =
      some (.ok (some (ascii
        "expected a number between 0 and 7 inclusive, got end of statement (;)"))) := by
  decide +kernel

/-- C90 (partial): messages that are the same are about the same token. Identifiers are known by their
names and numbers to six digits after the point. The property is claimed for all tokens: see `C90_bytes`,
`C90_parameters` and `C90_floats`. -/
theorem C90_told_apart_partial (env : MessageEnv) (c d : ScanCtx) (g : Bytes) (hc : Own c) (hd : Own d)
    (nc : Nameable c.token) (nd : Nameable d.token) (h1 : got env c = .ok g)
    (h2 : got env d = .ok g) : NamedAlike env.toParseEnv c.token d.token :=
  got_alike hc hd nc nd h1 h2

/-- C90 (partial): messages that are the same say that the same was expected, and are about the same
token. It is claimed for all tokens: see `C90_bytes`, `C90_parameters` and `C90_floats`. -/
theorem C90_messages_partial (env : MessageEnv) (hn : NamesKeywords env.toParseEnv) (w v : Wanted)
    (hw : w.Usual) (hv : v.Usual) (c d : ScanCtx) (m : Bytes) (hc : Own c) (hd : Own d)
    (nc : Nameable c.token) (nd : Nameable d.token) (h1 : w.message env c = .ok (some m))
    (h2 : v.message env d = .ok (some m)) : w = v ∧ NamedAlike env.toParseEnv c.token d.token := by
  obtain ⟨-, g, hg, e1⟩ := message_some hw h1
  obtain ⟨-, k, hk, e2⟩ := message_some hv h2
  obtain ⟨e, rfl⟩ := expected_inj hn hw hv (e1.symm.trans e2)
  exact ⟨e, got_alike hc hd nc nd hg hk⟩

example : NamesKeywords asciiMessages.toParseEnv := by unfold NamesKeywords; decide +kernel

example : Own ⟨.string (ascii "a"), ascii "a"⟩ ∧ Own ⟨.rune 40, ascii "a"⟩ := by
  constructor
  · intro s h; cases h; rfl
  · intro s h; cases h

example : Nameable (.identifier 200) ∧ Nameable (.rune 40) ∧ Nameable .lessEqual ∧
    Nameable (.float 0x3FF0000000000000#64) := by
  refine ⟨trivial, by simp [Nameable], trivial, ?_⟩
  show F64.isFinite _ = true
  decide +kernel

example : got asciiMessages ⟨.float 0x3FF8000000000000#64, []⟩ = .ok (ascii "float 1.500000") ∧
    got asciiMessages ⟨.float 0xBFB999999999999A#64, []⟩ = .ok (ascii "float -0.100000") ∧
    got asciiMessages ⟨.lessEqual, []⟩ = .ok (ascii "<=") := by
  decide +kernel

/-- C90 fails for bytes: the message has the text that an earlier token has left in the field `String`,
whatever the bytes are. -/
theorem C90_bytes :
    (∀ env s b b', got env ⟨.bytes b, s⟩ = got env ⟨.bytes b', s⟩) ∧
    message90 "VALUES ('ab', 1 x'41')" 5 (.runes [44, 41]) =
      some (.ok (some (ascii "expected rune ,, or rune ), got bytes ab"))) ∧
    message90 "VALUES ('ab', 1 x'42')" 5 (.runes [44, 41]) =
      some (.ok (some (ascii "expected rune ,, or rune ), got bytes ab"))) ∧
    message90 "VALUES (1 x'41')" 3 (.runes [44, 41]) =
      some (.ok (some (ascii "expected rune ,, or rune ), got bytes "))) :=
  ⟨fun _ _ _ _ => rfl, by decide +kernel, by decide +kernel, by decide +kernel⟩

/-- C90 fails for parameters: they all have the same text, which is not that of the input. -/
theorem C90_parameters :
    (∀ env i s, got env ⟨.parameter i, s⟩ = .ok (ascii "token -10")) ∧
    message90 "VALUES (1 $2)" 3 (.runes [44, 41]) =
      some (.ok (some (ascii "expected rune ,, or rune ), got token -10"))) := by
  refine ⟨fun env i s => ?_, by decide +kernel⟩
  have : formatToken (-10) = ascii "token -10" := by decide +kernel
  rw [← this]
  rfl

/-- C90 fails for numbers: those of one and two billionths have the same text. -/
theorem C90_floats : ∃ a b : F64, a ≠ b ∧ F64.isFinite a = true ∧ F64.isFinite b = true ∧
    ∀ env s, got env ⟨.float a, s⟩ = .ok (ascii "float 0.000000") ∧
      got env ⟨.float b, s⟩ = .ok (ascii "float 0.000000") := by
  refine ⟨0x3E112E0BE826D695#64, 0x3E212E0BE826D695#64, by decide, by decide +kernel,
    by decide +kernel, fun env s => ?_⟩
  have e1 : ascii "float " ++ formatF 0x3E112E0BE826D695#64 = ascii "float 0.000000" := by
    decide +kernel
  have e2 : ascii "float " ++ formatF 0x3E212E0BE826D695#64 = ascii "float 0.000000" := by
    decide +kernel
  exact ⟨congrArg Res.ok e1, congrArg Res.ok e2⟩

end Maho
