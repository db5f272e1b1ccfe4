import Verif.Lemmas.Scan
/-
C56-C60: the scanner.
-/
namespace Maho
open Maho.Spec

/-- Letters and digits of ASCII; for the examples. -/
def asciiScan : ScanEnv where
  letter r := (65 ≤ r && r ≤ 90) || (97 ≤ r && r ≤ 122)
  digit r := 48 ≤ r && r ≤ 57
  parseFloat _ := some 0
  id b _ := b.length
  letter_ascii _ _ := rfl
  digit_ascii _ _ := rfl

/-! ### C56: scanning terminates and makes progress -/

/-- Every call of `Scan` returns (`scan` is a total function) and uses up at least one rune, unless
the input is at its end. -/
theorem C56_progress (env : ScanEnv) (l : List Nat) (h : l ≠ []) :
    (scan env false l).rest.length < l.length := by
  obtain ⟨blank, lexeme, gap, e, _, _, h1 | h1⟩ := scan_spec env l
  · rw [h1.2.2.2]
    exact List.length_pos_iff.2 h
  · have := congrArg List.length e
    have hp := List.length_pos_iff.2 h1.2.1
    simp only [List.length_append] at this
    omega

example : runes "a+1" ≠ [] ∧ (scan asciiScan false (runes "a+1")).rest = runes "+1" := by
  decide +kernel

/-- Scanning reaches the end of the input after at most as many tokens as there are runes; from
then on every token is EOF. -/
theorem C56_reaches_end (env : ScanEnv) (l : List Nat) :
    ∃ k ≤ l.length, (∀ j < k, tokenAt env false l j ≠ .eof) ∧
      ∀ j, k ≤ j → tokenAt env false l j = .eof ∧ restAfter env false l (j + 1) = [] := by
  have hlen : ∀ j, (restAfter env false l j).length ≤ l.length - j := by
    intro j
    induction j with
    | zero => exact Nat.le_refl _
    | succ j ih =>
      by_cases h : restAfter env false l j = []
      · have : restAfter env false l (j + 1) = [] := by
          simp [restAfter, h, scan, skip]
        rw [this]; exact Nat.zero_le _
      · have := C56_progress env _ h
        simp only [restAfter]
        omega
  have hend : ∀ j, tokenAt env false l j = .eof → restAfter env false l (j + 1) = [] := by
    intro j hj
    obtain ⟨_, _, _, _, _, _, h1 | h1⟩ := scan_spec env (restAfter env false l j)
    · exact h1.2.2.2
    · exact absurd hj h1.1
  have hstay : ∀ j, restAfter env false l j = [] → tokenAt env false l j = .eof := by
    intro j hj
    simp [tokenAt, hj, scan, skip]
  have hex : ∃ k, k ≤ l.length ∧ tokenAt env false l k = .eof := by
    refine ⟨l.length, Nat.le_refl _, hstay _ ?_⟩
    have := hlen l.length
    exact List.length_eq_zero_iff.1 (by omega)
  have hmin : ∀ n, (∃ k ≤ n, tokenAt env false l k = .eof) →
      ∃ k ≤ n, tokenAt env false l k = .eof ∧ ∀ j < k, tokenAt env false l j ≠ .eof := by
    intro n
    induction n with
    | zero =>
      rintro ⟨k, hk, h⟩
      exact ⟨k, hk, h, fun j hj => by omega⟩
    | succ n ih =>
      rintro ⟨k, hk, h⟩
      by_cases hn : ∃ k ≤ n, tokenAt env false l k = .eof
      · obtain ⟨k, hk, h⟩ := ih hn
        exact ⟨k, by omega, h⟩
      · refine ⟨k, hk, h, fun j hj he => hn ⟨j, by omega, he⟩⟩
  obtain ⟨k, hk, h, hj⟩ := hmin _ hex
  refine ⟨k, hk, hj, ?_⟩
  intro j hkj
  have : tokenAt env false l j = .eof := by
    induction j with
    | zero =>
      have : k = 0 := by omega
      rwa [this] at h
    | succ j ih =>
      by_cases hk' : k ≤ j
      · exact hstay _ (hend j (ih hk'))
      · have : k = j + 1 := by omega
        rwa [this] at h
  exact ⟨this, hend j this⟩

example : (List.range 5).map (tokenAt asciiScan false (runes "x <= 1 ;")) =
    [.identifier 1, .lessEqual, .integer 1, .endOfStatement, .eof] := by decide +kernel

/-- If the reader fails after the runes `l`, the scanner gets to the error: after at most two tokens
for every rune, every token is an error. -/
theorem C56_failing_reader (env : ScanEnv) (l : List Nat) :
    ∃ k ≤ 2 * l.length, ∀ j, k ≤ j →
      tokenAt env true l j = .error false ∧ restAfter env true l (j + 1) = [] := by
  have hnil : scan env true [] = ⟨.error false, [], []⟩ := rfl
  have hw : ∀ j, weight (restAfter env true l j) ≤ weight l - j := by
    intro j
    induction j with
    | zero => exact Nat.le_refl _
    | succ j ih =>
      by_cases h : restAfter env true l j = []
      · have : restAfter env true l (j + 1) = [] := by simp [restAfter, h, hnil]
        rw [this]; exact Nat.zero_le _
      · have := scan_weight env true h
        simp only [restAfter]
        omega
  have hl : weight l ≤ 2 * l.length := by unfold weight; omega
  refine ⟨2 * l.length, Nat.le_refl _, ?_⟩
  intro j hj
  have h0 : restAfter env true l j = [] := by
    have := hw j
    exact weight_zero.1 (by omega)
  simp [tokenAt, restAfter, h0, hnil]

example : (List.range 4).map (tokenAt asciiScan true (runes "e")) =
    [.identifier 1, .error false, .error false, .error false] := by decide +kernel

/-- The fields `unread` and `read` of the scanner are a list of runes that are still to come:
`readRune` takes the first, and `unreadRune` puts it back. -/
theorem C56_reader (fails : Bool) (s : Reader) (h : Reading fails s) :
    (match pending s with
      | [] => (s.readRune fails).1 = (if fails = true then -3 else -1) ∧
          pending (s.readRune fails).2 = [] ∧
          pending (s.readRune fails).2.unreadRune = reread fails []
      | r :: rest => (s.readRune fails).1 = r ∧ pending (s.readRune fails).2 = rest ∧
          pending (s.readRune fails).2.unreadRune = r :: rest) ∧
    Reading fails (s.readRune fails).2 ∧ Reading fails (s.readRune fails).2.unreadRune := by
  obtain ⟨unread, read, runes⟩ := s
  cases unread with
  | true =>
    rcases h rfl with h | ⟨h1, h2, h3⟩
    · simp only at h
      have h1 : read ≠ -1 := by omega
      have h2 : (read.toNat : Int) = read := Int.toNat_of_nonneg h
      simp [pending, Reader.readRune, Reader.unreadRune, Reading, h, h1]
      omega
    · simp only at h1 h2 h3
      subst h1 h2 h3
      simp [pending, Reader.readRune, Reader.unreadRune, Reading, reread]
  | false =>
    cases runes with
    | nil => cases fails <;> simp [pending, Reader.readRune, Reader.unreadRune, Reading, reread]
    | cons r rest =>
      have : ((r : Nat) : Int) ≠ -1 := by omega
      simp [pending, Reader.readRune, Reader.unreadRune, Reading, this]

example : Reading true ⟨true, 65, [66]⟩ ∧ pending ⟨true, 65, [66]⟩ = [65, 66] :=
  ⟨fun _ => .inl (by decide), by decide⟩

/-! ### C57: quoted strings scan to their contents -/

/-- A text between quotes, with its quotes doubled, is one String token with that text. White space
and comments can be before it, and anything that does not continue the constant after it. -/
theorem C57_string (env : ScanEnv) (blank s rest : List Nat) (hb : Skipped blank)
    (hc : ¬ Continues rest) :
    scan env false (blank ++ [39] ++ quotesDoubled s ++ [39] ++ rest) =
      ⟨.string (text s), text s, rest.dropWhile isSpace⟩ := by
  have hk : ∀ s, Constant false (quotesDoubled s ++ [39]) (text s) := by
    intro s
    induction s with
    | nil => exact .done
    | cons r s ih =>
      have e : quotesDoubled (r :: s) ++ [39] =
          (if r = 39 then [39, 39] else [r]) ++ (quotesDoubled s ++ [39]) := by
        simp [quotesDoubled]
      rw [e, text_cons]
      refine .piece _ _ _ _ ?_ ih
      split
      · rename_i h; subst h; exact .quote
      · rename_i h; exact .plain r h (by simp)
  have e : blank ++ [39] ++ quotesDoubled s ++ [39] ++ rest =
      blank ++ 39 :: ((quotesDoubled s ++ [39]) ++ rest) := by simp
  rw [e, scan_blank env false hb (starts_of _ (by decide) (by decide) (by decide))]
  exact scan_string env (hk s) hc

/-- The same for `e'…'`, with the backslashes doubled too. -/
theorem C57_escape_string (env : ScanEnv) (blank s rest : List Nat) (c : Nat)
    (hl : c = 101 ∨ c = 69) (hb : Skipped blank) (hc : ¬ Continues rest) :
    scan env false (blank ++ [c, 39] ++ quotesEscaped s ++ [39] ++ rest) =
      ⟨.string (text s), text s, rest.dropWhile isSpace⟩ := by
  have hk : ∀ s, Constant true (quotesEscaped s ++ [39]) (text s) := by
    intro s
    induction s with
    | nil => exact .done
    | cons r s ih =>
      have e : quotesEscaped (r :: s) ++ [39] =
          (if r = 39 ∨ r = 92 then [r, r] else [r]) ++ (quotesEscaped s ++ [39]) := by
        simp [quotesEscaped]
      rw [e, text_cons]
      refine .piece _ _ _ _ ?_ ih
      split
      · rename_i h
        rcases h with rfl | rfl
        · exact .quote
        · exact .escape [92] 92 rfl (.other 92 (by simp [escapeLetters]) (by decide) (by decide))
      · rename_i h
        exact .plain r (fun e => h (.inl e)) (fun _ e => h (.inr e))
  have e : blank ++ [c, 39] ++ quotesEscaped s ++ [39] ++ rest =
      blank ++ c :: (39 :: ((quotesEscaped s ++ [39]) ++ rest)) := by simp
  rw [e, scan_blank env false hb (starts_of _ (by rcases hl with rfl | rfl <;> decide)
    (by omega) (by omega))]
  exact scan_escapeString env hl (hk s) hc

/-- Every constant that the grammar in Spec/Scan.lean allows, with escapes and continued on more
than one line, is one token with the bytes that it stands for. -/
theorem C57_constant (env : ScanEnv) (blank body rest : List Nat) (v : Bytes) (hb : Skipped blank)
    (hc : ¬ Continues rest) :
    (Constant false body v → scan env false (blank ++ [39] ++ body ++ rest) =
      ⟨.string v, v, rest.dropWhile isSpace⟩) ∧
    (Constant true body v → ∀ c, c = 101 ∨ c = 69 →
      scan env false (blank ++ [c, 39] ++ body ++ rest) =
        ⟨.string v, v, rest.dropWhile isSpace⟩) ∧
    (Constant true body v → scan env false (blank ++ [98, 39] ++ body ++ rest) =
      ⟨.bytes v, v, rest.dropWhile isSpace⟩) := by
  refine ⟨?_, ?_, ?_⟩
  · intro h
    rw [show blank ++ [39] ++ body ++ rest = blank ++ 39 :: (body ++ rest) by simp,
      scan_blank env false hb (starts_of _ (by decide) (by decide) (by decide))]
    exact scan_string env h hc
  · intro h c hl
    rw [show blank ++ [c, 39] ++ body ++ rest = blank ++ c :: (39 :: (body ++ rest)) by simp,
      scan_blank env false hb (starts_of _ (by rcases hl with rfl | rfl <;> decide)
        (by omega) (by omega))]
    exact scan_escapeString env hl h hc
  · intro h
    rw [show blank ++ [98, 39] ++ body ++ rest = blank ++ 98 :: (39 :: (body ++ rest)) by simp,
      scan_blank env false hb (starts_of _ (by decide) (by decide) (by decide))]
    exact scan_escapeBytes env h hc

theorem not_continues_of {r : Nat} {l : List Nat} (h : isSpace r = false) (hq : r ≠ 39) :
    ¬ Continues (r :: l) := by
  rintro (⟨m, e⟩ | ⟨ws, m, e, hw, hn⟩)
  · exact hq (List.cons.inj e).1
  · cases ws with
    | nil => simp at hn
    | cons w ws =>
      have := (List.cons.inj e).1
      subst this
      rw [hw r (by simp)] at h
      cases h

example : Skipped (runes " ") ∧ ¬ Continues (runes ", 2") ∧
    scan asciiScan false (runes " 'it''s', 2") = ⟨.string (ascii "it's"), ascii "it's", runes ", 2"⟩ :=
  ⟨.space 32 [] (by decide) .nil, not_continues_of (r := 44) (by decide) (by decide),
    by decide +kernel⟩

example : scan asciiScan false (runes "E'a\\\\b\\n''';") =
    ⟨.string (ascii "a\\b\n'"), ascii "a\\b\n'", runes ";"⟩ := by decide +kernel

example : scan asciiScan false (runes "'ab'\n 'cd' x") =
    ⟨.string (ascii "abcd"), ascii "abcd", runes "x"⟩ := by decide +kernel

/-! ### C58: numbers scan to their value -/

/-- A decimal numeral, with or without a sign, is one Integer token with its value if the value of
the digits is less than 2^63, and one error if not. -/
theorem C58_integer (env : ScanEnv) (blank s ds rest : List Nat) (minus : Bool) (n : Nat)
    (hb : Skipped blank) (hs : Sign s minus) (hd : Numeral ds n)
    (hr : ∀ c, rest.head? = some c → env.digit c = false ∧ c ≠ 46) :
    (scan env false (blank ++ s ++ ds ++ rest)).rest = rest ∧
    (n < 2 ^ 63 → ∃ i : BitVec 64,
      (scan env false (blank ++ s ++ ds ++ rest)).token = .integer i ∧
        i.toInt = if minus = true then -(n : Int) else n) ∧
    (2 ^ 63 ≤ n → (scan env false (blank ++ s ++ ds ++ rest)).token = .error false) := by
  have key : scan env false (blank ++ s ++ ds ++ rest) =
      ⟨env.numberToken minus false (text ds), text ds, rest⟩ := by
    rw [← scan_number env hs hd hr, List.append_assoc, List.append_assoc]
    obtain ⟨hne, hdd, _⟩ := hd
    cases ds with
    | nil => exact absurd rfl hne
    | cons r ds =>
      have hr0 := hdd r (by simp)
      rcases hs with ⟨rfl, rfl⟩ | ⟨rfl, rfl⟩ | ⟨rfl, rfl⟩
      · exact scan_blank env false hb (starts_of _ (by unfold isSpace; simp; omega) (by omega)
          (by omega))
      · exact scan_blank env false hb (starts_of _ (by decide) (by decide) (by decide))
      · exact scan_blank env false hb ⟨by decide, fun _ => ⟨by simp, by simp; omega⟩, by simp⟩
  rw [key]
  simp only [numberToken_text env minus hd]
  refine ⟨trivial, ?_, ?_⟩
  · intro hn
    rw [if_pos hn]
    refine ⟨_, rfl, ?_⟩
    rw [BitVec.toInt_ofInt]
    exact Int.bmod_eq_of_le (by split <;> omega) (by split <;> omega)
  · intro hn
    rw [if_neg (by omega)]

/-- An Integer token never has a wrong value: what was scanned is a numeral with that value. -/
theorem C58_sound (env : ScanEnv) (l : List Nat) (i : BitVec 64)
    (h : (scan env false l).token = .integer i) :
    ∃ blank s minus ds n gap, l = blank ++ s ++ ds ++ gap ++ (scan env false l).rest ∧
      Skipped blank ∧ Sign s minus ∧ Numeral ds n ∧ (∀ r ∈ gap, isSpace r = true) ∧
      i.toInt = if minus = true then -(n : Int) else n := by
  obtain ⟨blank, lexeme, gap, e, h1, h2, h3 | h3⟩ := scan_spec env l
  · rw [h] at h3
    cases h3.1
  · obtain ⟨_, _, h5⟩ := h3
    rw [h] at h5
    obtain ⟨s, minus, ds, n, rfl, g1, g2, _, g4⟩ := h5
    exact ⟨blank, s, minus, ds, n, gap, by simpa using e, h1, g1, g2, h2, g4⟩

example : Sign (runes "-") true ∧ Numeral (runes "42") 42 ∧
    scan asciiScan false (runes "-42)") =
      ⟨.integer (BitVec.ofInt 64 (-42)), ascii "42", runes ")"⟩ :=
  ⟨.inr (.inr ⟨rfl, rfl⟩), ⟨by decide, by decide, by decide⟩, by decide +kernel⟩

example : (scan asciiScan false (runes "9223372036854775807")).token =
      .integer 0x7FFFFFFFFFFFFFFF#64 ∧
    (scan asciiScan false (runes "9223372036854775808")).token = .error false := by
  decide +kernel

/-- The least int64 cannot be written: its digits are a number that is too large. -/
theorem C58_least (env : ScanEnv) :
    (scan env false (runes "-9223372036854775808")).token = .error false := by
  have := C58_integer env [] (runes "-") (runes "9223372036854775808") [] true 9223372036854775808
    .nil (.inr (.inr ⟨rfl, rfl⟩)) ⟨by decide, by decide, by decide⟩ (by simp)
  have e : ([] : List Nat) ++ runes "-" ++ runes "9223372036854775808" ++ [] =
    runes "-9223372036854775808" := by decide
  rw [e] at this
  exact this.2.2 (by decide)

/-! ### C59: hex byte strings scan to their bytes -/

/-- `x'…'` with pairs of hex digits is one Bytes token with exactly those bytes. What is missing:
the value need not stay the same while scanning continues, see `C59_not_stable`. -/
theorem C59_hex_partial (env : ScanEnv) (blank body rest : List Nat) (b : Bytes) (c : Nat)
    (hb : Skipped blank) (hl : c = 120 ∨ c = 88) (h : HexPairs body b) :
    scan env false (blank ++ [c, 39] ++ body ++ [39] ++ rest) = ⟨.bytes b, b, rest⟩ := by
  rw [show blank ++ [c, 39] ++ body ++ [39] ++ rest = blank ++ c :: (39 :: (body ++ 39 :: rest)) by
      simp,
    scan_blank env false hb (starts_of _ (by rcases hl with rfl | rfl <;> decide)
      (by omega) (by omega))]
  exact scan_hex env hl h rest

example : HexPairs (runes "0aF1") [0x0a#8, 0xf1#8] ∧
    scan asciiScan false (runes "x'0aF1' ;") = ⟨.bytes [0x0a#8, 0xf1#8], [0x0a#8, 0xf1#8], runes " ;"⟩ :=
  ⟨.cons 48 97 0 10 _ _ (.digit 0 (by decide)) (.lower 0 (by decide))
    (.cons 70 49 15 1 _ _ (.upper 5 (by decide)) (.digit 1 (by decide)) .nil), by decide +kernel⟩

/-- Every byte string can be written: there are hex digits for it. -/
theorem C59_all_bytes (b : Bytes) : ∃ body, HexPairs body b := by
  induction b with
  | nil => exact ⟨[], .nil⟩
  | cons x b ih =>
    obtain ⟨body, h⟩ := ih
    have hex : ∀ d < 16, ∃ r, Hex r d := by
      intro d hd
      by_cases h10 : d < 10
      · exact ⟨48 + d, .digit d h10⟩
      · have := Hex.lower (d - 10) (by omega)
        rw [show 10 + (d - 10) = d by omega] at this
        exact ⟨_, this⟩
    have hx := x.isLt
    obtain ⟨r1, h1⟩ := hex (x.toNat / 16) (by omega)
    obtain ⟨r2, h2⟩ := hex (x.toNat % 16) (by omega)
    refine ⟨r1 :: r2 :: body, ?_⟩
    have := HexPairs.cons r1 r2 _ _ body b h1 h2 h
    rwa [show x.toNat / 16 * 16 + x.toNat % 16 = x.toNat by omega, BitVec.ofNat_toNat,
      BitVec.setWidth_eq] at this

/-- The value of a Bytes token does not stay the same: after `x'01'`, the next token writes its
text over it. -/
theorem C59_not_stable (env : ScanEnv) :
    (scan env false (runes "x'01' a")).token = .bytes [1#8] ∧
    ∃ v, sliceAfter 64 [1#8]
      (scan env false (scan env false (runes "x'01' a")).rest).buf = some v ∧ v ≠ [1#8] := by
  have h1 : scan env false (runes "x'01' a") = ⟨.bytes [1#8], [1#8], runes " a"⟩ :=
    C59_hex_partial env [] (runes "01") (runes " a") [1#8] 120 .nil (.inl rfl)
      (.cons 48 49 0 1 _ _ (.digit 0 (by decide)) (.digit 1 (by decide)) .nil)
  have h2 : (scan env false (runes " a")).buf = [97#8] := by
    have hs : Starts 97 [] := starts_of _ (by decide) (by decide) (by decide)
    have l : env.letter 97 = true := by rw [env.letter_ascii 97 (by decide)]; rfl
    have e : runes " a" = [32] ++ 97 :: [] := by decide
    rw [e, scan_blank env false (.space 32 [] (by decide) .nil) hs]
    simp only [scan, skip_start hs]
    simp [l, scanIdentifier]
    decide
  rw [h1]
  refine ⟨rfl, [97#8], ?_, by decide⟩
  simp only [h2]
  decide

/-- The value stays the same as long as the tokens after it write nothing, or the same bytes. -/
theorem C59_stable_partial (capacity : Nat) (value written : Bytes)
    (h : written.length + 4 ≤ capacity) :
    sliceAfter capacity value written = some value ↔
      ∀ i, i < value.length → i < written.length → written[i]? = value[i]? := by
  simp only [sliceAfter, if_pos h, Option.some.injEq]
  constructor
  · intro e i h1 h2
    conv => rhs; rw [← e]
    rw [List.getElem?_append_left (by rw [List.length_take]; omega), List.getElem?_take]
    simp [h1]
  · intro hi
    apply List.ext_getElem?
    intro i
    by_cases h1 : i < value.length
    · by_cases h2 : i < written.length
      · rw [List.getElem?_append_left (by rw [List.length_take]; omega), List.getElem?_take]
        simp [h1, hi i h1 h2]
      · rw [List.getElem?_append_right (by rw [List.length_take]; omega), List.getElem?_drop,
          List.length_take]
        congr 1
        omega
    · rw [List.getElem?_append_right (by rw [List.length_take]; omega), List.getElem?_drop,
        List.length_take, List.getElem?_eq_none (by omega), List.getElem?_eq_none (by omega)]

example : sliceAfter 64 [1#8, 2#8] [] = some [1#8, 2#8] ∧
    sliceAfter 64 [1#8, 2#8] [7#8] = some [7#8, 2#8] := by decide

/-! ### C60: no input is ignored -/

/-- The input of a `Scan` is white space and comments, a text that spells the token or is reported
as an error, white space, and what is left. What is missing: at EOF, a `-` or a `/` can have been
dropped, see `C60_dropped`. -/
theorem C60_scan_partial (env : ScanEnv) (l : List Nat) :
    ∃ blank lexeme gap, l = blank ++ lexeme ++ gap ++ (scan env false l).rest ∧ Skipped blank ∧
      (∀ r ∈ gap, isSpace r = true) ∧
      (((scan env false l).token = .eof ∧ Dangling lexeme ∧ gap = [] ∧
          (scan env false l).rest = []) ∨
        ((scan env false l).token ≠ .eof ∧ lexeme ≠ [] ∧
          Spells env (scan env false l).token lexeme)) :=
  scan_spec env l

/-- The white space is that of Unicode. -/
theorem C60_white_space (r : Nat) : isSpace r = true ↔ r ∈ whiteSpace := by
  simp only [isSpace, whiteSpace, Bool.or_eq_true, Bool.and_eq_true, decide_eq_true_eq,
    beq_iff_eq, List.mem_cons, List.not_mem_nil, or_false]
  omega

/-- The whole of an input is spelled by the tokens that repeated scanning gives. -/
theorem C60_input_partial (env : ScanEnv) (l : List Nat) :
    ∃ k ≤ l.length, tokenAt env false l k = .eof ∧
      Spelled env ((List.range k).map (tokenAt env false l)) l := by
  obtain ⟨k, hk, h1, h2⟩ := C56_reaches_end env l
  refine ⟨k, hk, (h2 k (Nat.le_refl _)).1, ?_⟩
  have key : ∀ n j, j + n = k →
      Spelled env ((List.range' j n).map (tokenAt env false l)) (restAfter env false l j) := by
    intro n
    induction n with
    | zero =>
      intro j hj
      obtain ⟨blank, lexeme, gap, e, g1, _, g3 | g3⟩ := scan_spec env (restAfter env false l j)
      · obtain ⟨_, g4, rfl, g6⟩ := g3
        rw [g6] at e
        rw [e]
        simpa using Spelled.nil blank lexeme g1 g4
      · exact absurd (h2 j (by omega)).1 g3.1
    | succ n ih =>
      intro j hj
      obtain ⟨blank, lexeme, gap, e, g1, g2, g3 | g3⟩ := scan_spec env (restAfter env false l j)
      · exact absurd g3.1 (h1 j (by omega))
      · rw [List.range'_succ, List.map_cons]
        have := Spelled.cons (tokenAt env false l j) _ blank lexeme gap _ g1 g3.2.2 g3.2.1 g3.1 g2
          (ih (j + 1) (by omega))
        rw [show restAfter env false l (j + 1) = (scan env false (restAfter env false l j)).rest
          from rfl, ← e] at this
        exact this
  have := key k 0 (by omega)
  rwa [← List.range_eq_range'] at this

example : (List.range 3).map (tokenAt asciiScan false (runes "a -- c\n/* d */ 'b'  \n")) =
    [.identifier 1, .string (ascii "b"), .eof] := by decide +kernel

/-- A `-` or a `/` at the end of the input is dropped without an error. -/
theorem C60_dropped (env : ScanEnv) :
    scan env false (runes "-") = ⟨.eof, [], []⟩ ∧ scan env false (runes "/") = ⟨.eof, [], []⟩ := by
  have h1 : skip .space (runes "-") = none := by decide
  have h2 : skip .space (runes "/") = none := by decide
  simp [scan, h1, h2]

end Maho
