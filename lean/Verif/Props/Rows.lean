import Verif.Lemmas.Rows
import Verif.Lemmas.RowsEqual
/-
C74, C75: rows are printed and read back, and lists of rows are compared (testutil/parse.go,
testutil/rows.go, types/value.go).
-/
namespace Maho
open Spec

/-- An environment for the examples. -/
def rowEnv : RowEnv where
  letter r := (65 ≤ r && r ≤ 90) || (97 ≤ r && r ≤ 122)
  digit r := 48 ≤ r && r ≤ 57
  parseFloat b := if b = ascii "1.5" then some 0x3FF8000000000000#64 else none
  id _ _ := 0
  letter_ascii _ _ := rfl
  digit_ascii _ _ := rfl
  string _ := []
  formatFloat f := if f = 0x3FF0000000000000#64 then ascii "1" else ascii "1.5"
  formatFloatG _ := ascii "1.5"
  lower r := if 65 ≤ r ∧ r ≤ 90 then r + 32 else r
  lower_ascii _ _ := rfl
  space_letter r h := by
    by_cases hr : r < 128
    · have : ∀ r < 128, isSpace r = true →
          ((65 ≤ r && r ≤ 90) || (97 ≤ r && r ≤ 122)) = false := by decide +kernel
      exact this r hr h
    · simp; omega
  space_digit r h := by
    by_cases hr : r < 128
    · have : ∀ r < 128, isSpace r = true → (48 ≤ r && r ≤ 57) = false := by decide +kernel
      exact this r hr h
    · simp; omega
  letter_digit r h := by simp at h ⊢; omega

/-- What is read from a text in ASCII. -/
def rowsOf (s : String) : Option (List Row) := parseRows rowEnv (source (ascii s))

/-! ### C74: rows are printed and read back -/

/-- C74: `ParseRows` accepts exactly the texts of the grammar: one or more rows with commas between
them, each in parentheses, of one or more values. It returns the rows of the text. -/
theorem C74_reads (env : RowEnv) (l : List Nat) (rows : List Row) :
    parseRows env l = some rows ↔ RowsText env rows l := parseRows_some

example : rowsOf " ( 123,True ,'abc' ),(NULL, 1.5, '\\x0aFf') " =
    some [[some (.int 123#64), some (.bool true), some (.str (ascii "abc"))],
      [none, some (.float 0x3FF8000000000000#64), some (.bytes [10#8, 255#8])]] := by decide +kernel

example : rowsOf "()" = none ∧ rowsOf "" = none ∧ rowsOf "(1)," = none ∧ rowsOf "(1 2)" = none ∧
    rowsOf "(1.2.3)" = none ∧ rowsOf "(t)" = none ∧ rowsOf "('\\x123')" = none ∧
    rowsOf "('a)" = none := by decide +kernel

/-- C74: a text is the text of at most one list of rows. -/
theorem C74_unambiguous (env : RowEnv) (l : List Nat) (rows1 rows2 : List Row)
    (h1 : RowsText env rows1 l) (h2 : RowsText env rows2 l) : rows1 = rows2 := by
  have e := (parseRows_some.2 h1).symm.trans (parseRows_some.2 h2)
  exact Option.some.inj e

/-- C74 (partial): what `FormatRows` prints for rows, with a comma and white space between them, is
UTF-8 and `ParseRows` returns the same rows. Missing: no rows, rows without values, and values whose
text is not read back (`ReadableValue`), where the claim is false. -/
theorem C74_rows_partial (env : RowEnv) (rows : List Row) (sep : Bytes) (hne : rows ≠ [])
    (hrows : ∀ row ∈ rows, row ≠ [] ∧ ∀ v ∈ row, ReadableValue env v) (hsep : RowSeparator sep) :
    ∃ l, Encodes l (formatRows env.toParseEnv sep rows) ∧
      ∀ m, Encodes m (formatRows env.toParseEnv sep rows) → m = l ∧ parseRows env m = some rows := by
  obtain ⟨a, b, hs, ha, hb⟩ := hsep
  obtain ⟨l, h1, h2⟩ := formatRows_text hs ha hb hne hrows [] blanks_nil
  refine ⟨l, h1, fun m hm => ?_⟩
  obtain rfl := encodes_unique hm h1
  exact ⟨rfl, parseRows_some.2 h2⟩

example : RowSeparator (ascii ", ") ∧ RowSeparator (ascii "\n,") :=
  ⟨⟨[], [32], encodes_ascii (by simp) (by decide), blanks_nil, blanks_space⟩,
    ⟨[10], [], encodes_ascii (by simp) (by decide),
      by intro r hr; rw [List.mem_singleton.1 hr]; decide, blanks_nil⟩⟩

/-- Rows that are read back. -/
def sampleRows : List Row :=
  [[some (.int 12#64), none, some (.bool false)],
   [some (.str (ascii "a, (b)")), some (.bytes [1#8, 0xAB#8]), some (.float 0x3FF8000000000000#64)]]

example : ∀ row ∈ sampleRows, row ≠ [] ∧ ∀ v ∈ row, ReadableValue rowEnv v := by
  intro row hrow
  have : row = [some (.int 12#64), none, some (.bool false)] ∨
      row = [some (.str (ascii "a, (b)")), some (.bytes [1#8, 0xAB#8]),
        some (.float 0x3FF8000000000000#64)] := by simpa [sampleRows] using hrow
  rcases this with rfl | rfl
  · refine ⟨by simp, fun v hv => ?_⟩
    have : v = some (.int 12#64) ∨ v = none ∨ v = some (.bool false) := by simpa using hv
    rcases this with rfl | rfl | rfl
    · show (0 : Int) ≤ (12#64).toInt; decide
    · trivial
    · trivial
  · refine ⟨by simp, fun v hv => ?_⟩
    have : v = some (.str (ascii "a, (b)")) ∨ v = some (.bytes [1#8, 0xAB#8]) ∨
        v = some (.float 0x3FF8000000000000#64) := by simpa using hv
    rcases this with rfl | rfl | rfl
    · exact ⟨source (ascii "a, (b)"), encodes_source (by decide), by decide, by decide, by decide⟩
    · trivial
    · exact ⟨[49, 46, 53], by decide, by decide, by decide +kernel, by decide +kernel⟩

example : formatRows rowEnv.toParseEnv (ascii ", ") sampleRows =
    ascii "(12, NULL, false), ('a, (b)', '\\x01ab', 1.5)" := by decide +kernel

/-- Printed and read again. -/
def reread74 (rows : List Row) : Option (List Row) :=
  parseRows rowEnv (source (formatRows rowEnv.toParseEnv (ascii ", ") rows))

/-- C74 fails: a negative integer is printed with a sign, which is not read. -/
theorem C74_negative_fails : reread74 [[some (.int 0xFFFFFFFFFFFFFFFF#64)]] = none := by decide +kernel

/-- C74 fails: a floating point number without a fraction becomes an integer. -/
theorem C74_float_becomes_int :
    reread74 [[some (.float 0x3FF0000000000000#64)]] = some [[some (.int 1#64)]] := by decide +kernel

/-- C74 fails: a string with quotes in it is read as two values, so that different rows have the
same text. -/
theorem C74_quote_splits :
    reread74 [[some (.str (ascii "a', 'b"))]] =
      some [[some (.str (ascii "a")), some (.str (ascii "b"))]] ∧
    rowString rowEnv.toParseEnv [some (.str (ascii "a', 'b"))] =
      rowString rowEnv.toParseEnv [some (.str (ascii "a")), some (.str (ascii "b"))] := by
  decide +kernel

/-- C74 fails: a string that starts like bytes becomes bytes, or is not read. -/
theorem C74_backslash_becomes_bytes :
    reread74 [[some (.str (ascii "\\x41"))]] = some [[some (.bytes [65#8])]] ∧
    reread74 [[some (.str (ascii "\\n"))]] = none := by decide +kernel

/-- C74 fails: a NUL at the start of a string is lost. -/
theorem C74_nul_is_lost :
    reread74 [[some (.str [0#8, 97#8])]] = some [[some (.str [97#8])]] := by decide +kernel

/-- C74 fails: a row without values, and no rows at all, are printed but not read. -/
theorem C74_empty_fails : reread74 [[]] = none ∧ reread74 [] = none := by decide +kernel

/-- C74: what is not a hex digit is taken as one. -/
theorem C74_not_hex : rowsOf "('\\xGZ')" = some [[some (.bytes [0x23#8])]] := by decide +kernel

/-! ### C75: lists of rows are compared -/

/-- The insertion of `sort.Slice` for short slices, in a slice that is sorted from its end. -/
def insertRow (less : Row → Row → Bool) (x : Row) : List Row → List Row
  | [] => [x]
  | y :: ys => if less x y then y :: insertRow less x ys else x :: y :: ys

theorem insertRow_perm (less : Row → Row → Bool) (x : Row) (l : List Row) :
    (insertRow less x l).Perm (x :: l) := by
  induction l with
  | nil => exact .refl _
  | cons y ys ih =>
    rw [insertRow]
    split
    · exact (ih.cons y).trans (.swap _ _ _)
    · exact .refl _

/-- A sort as `sort.Slice` does it for short slices. -/
def insertionSort : SortSlice where
  sort less rows := (rows.foldl (fun acc x => insertRow less x acc) []).reverse
  perm less rows := by
    have h : ∀ (rows acc : List Row),
        (rows.foldl (fun acc x => insertRow less x acc) acc).Perm (rows ++ acc) := by
      intro rows
      induction rows with
      | nil => intro acc; exact .refl _
      | cons x rows ih =>
        intro acc
        exact (ih _).trans (((insertRow_perm less x acc).append_left rows).trans List.perm_middle)
    have := h rows []
    rw [List.append_nil] at this
    exact (List.reverse_perm _).trans this
  sorted less rows h1 h2 := by
    rw [List.pairwise_reverse]
    have ins : ∀ (x : Row) (l : List Row), x ∈ rows → (∀ a ∈ l, a ∈ rows) →
        l.Pairwise (fun a b => less a b = false) →
        (insertRow less x l).Pairwise (fun a b => less a b = false) := by
      intro x l hx
      induction l with
      | nil => intro _ _; exact List.pairwise_singleton _ _
      | cons y ys ih =>
        intro hl hp
        obtain ⟨hy, hp⟩ := List.pairwise_cons.1 hp
        have hl' : ∀ a ∈ ys, a ∈ rows := fun a ha => hl a (List.mem_cons_of_mem _ ha)
        rw [insertRow]
        split
        · rename_i hxy
          refine List.pairwise_cons.2 ⟨fun z hz => ?_, ih hl' hp⟩
          rcases List.mem_cons.1 ((insertRow_perm less x ys).subset hz) with rfl | hz
          · exact h1 _ hx _ (hl y (by simp)) hxy
          · exact hy z hz
        · rename_i hxy
          have hxy : less x y = false := by simpa using hxy
          refine List.pairwise_cons.2 ⟨fun z hz => ?_, List.pairwise_cons.2 ⟨hy, hp⟩⟩
          rcases List.mem_cons.1 hz with rfl | hz
          · exact hxy
          · exact h2 z (hl' z hz) y (hl y (by simp)) x hx (hy z hz) hxy
    have fold : ∀ (l acc : List Row), (∀ a ∈ l, a ∈ rows) → (∀ a ∈ acc, a ∈ rows) →
        acc.Pairwise (fun a b => less a b = false) →
        (l.foldl (fun acc x => insertRow less x acc) acc).Pairwise
          (fun a b => less a b = false) := by
      intro l
      induction l with
      | nil => intro acc _ _ h; exact h
      | cons x l ih =>
        intro acc hl ha hp
        have hx := hl x (by simp)
        refine ih _ (fun a h => hl a (List.mem_cons_of_mem _ h)) (fun a h => ?_) (ins x acc hx ha hp)
        rcases List.mem_cons.1 ((insertRow_perm less x acc).subset h) with rfl | h
        · exact hx
        · exact ha a h
    exact fold rows [] (fun _ h => h) (by simp) List.Pairwise.nil

/-- C75 (partial): `RowsEqual` with `unordered` is true exactly when the rows are the same in some
order, however `sort.Slice` sorts. Missing: NaN, and integers beyond 2^53 together with floating
point numbers, where the claim is false. -/
theorem C75_unordered_partial (s : SortSlice) (rows1 rows2 : List Row)
    (hn : ∀ row ∈ rows1 ++ rows2, ∀ v ∈ row, NotNaN v)
    (hs : (∀ row ∈ rows1 ++ rows2, ∀ v ∈ row, SmallInt v) ∨
      (∀ row ∈ rows1 ++ rows2, ∀ v ∈ row, ¬ IsFloat v)) :
    (rowsEqual s rows1 rows2 true).1 = true ↔ SameUnordered rows1 rows2 := by
  have hc : Comparable (fun v => ∃ row ∈ rows1 ++ rows2, v ∈ row) :=
    ⟨fun v ⟨row, hr, hv⟩ => hn row hr v hv, by
      rcases hs with hs | hs
      · exact .inl fun v ⟨row, hr, hv⟩ => hs row hr v hv
      · exact .inr fun v ⟨row, hr, hv⟩ => hs row hr v hv⟩
  exact hc.unordered s (fun a ha v hv => ⟨a, List.mem_append_left _ ha, hv⟩)
    (fun a ha v hv => ⟨a, List.mem_append_right _ ha, hv⟩)

/-- C75 (partial): without `unordered` it is true exactly when the rows are the same one by one.
Missing: as before. -/
theorem C75_ordered_partial (s : SortSlice) (rows1 rows2 : List Row)
    (hn : ∀ row ∈ rows1 ++ rows2, ∀ v ∈ row, NotNaN v)
    (hs : (∀ row ∈ rows1 ++ rows2, ∀ v ∈ row, SmallInt v) ∨
      (∀ row ∈ rows1 ++ rows2, ∀ v ∈ row, ¬ IsFloat v)) :
    (rowsEqual s rows1 rows2 false).1 = true ↔ SameRows rows1 rows2 := by
  have hc : Comparable (fun v => ∃ row ∈ rows1 ++ rows2, v ∈ row) :=
    ⟨fun v ⟨row, hr, hv⟩ => hn row hr v hv, by
      rcases hs with hs | hs
      · exact .inl fun v ⟨row, hr, hv⟩ => hs row hr v hv
      · exact .inr fun v ⟨row, hr, hv⟩ => hs row hr v hv⟩
  exact hc.ordered s (fun a ha v hv => ⟨a, List.mem_append_left _ ha, hv⟩)
    (fun a ha v hv => ⟨a, List.mem_append_right _ ha, hv⟩)

/-- C75: for rows without floating point numbers, `RowsEqual` is true exactly when the lists are
equal, or with `unordered` when one is a permutation of the other. -/
theorem C75_no_floats (s : SortSlice) (rows1 rows2 : List Row)
    (h : ∀ row ∈ rows1 ++ rows2, ∀ v ∈ row, ¬ IsFloat v) :
    ((rowsEqual s rows1 rows2 false).1 = true ↔ rows1 = rows2) ∧
      ((rowsEqual s rows1 rows2 true).1 = true ↔ rows1.Perm rows2) := by
  have hn : ∀ row ∈ rows1 ++ rows2, ∀ v ∈ row, NotNaN v := by
    intro row hr v hv
    have := h row hr v hv
    cases v with
    | none => trivial
    | some v => cases v <;> first | trivial | exact absurd trivial this
  have h1 : ∀ a ∈ rows1, ∀ v ∈ a, ¬ IsFloat v := fun a ha => h a (List.mem_append_left _ ha)
  have h2 : ∀ a ∈ rows2, ∀ v ∈ a, ¬ IsFloat v := fun a ha => h a (List.mem_append_right _ ha)
  exact ⟨(C75_ordered_partial s rows1 rows2 hn (.inr h)).trans (sameRows_exact h1 h2),
    (C75_unordered_partial s rows1 rows2 hn (.inr h)).trans (sameUnordered_exact h1 h2)⟩

/-- C75: the rows stay in the two slices, and stay where they are without `unordered`. -/
theorem C75_keeps_rows (s : SortSlice) (rows1 rows2 : List Row) (unordered : Bool) :
    (rowsEqual s rows1 rows2 unordered).2.1.Perm rows1 ∧
      (rowsEqual s rows1 rows2 unordered).2.2.Perm rows2 ∧
      (unordered = false → (rowsEqual s rows1 rows2 unordered).2 = (rows1, rows2)) := by
  unfold rowsEqual
  by_cases hlen : rows1.length ≠ rows2.length
  · rw [if_pos hlen]
    exact ⟨.refl _, .refl _, fun _ => rfl⟩
  · rw [if_neg hlen]
    cases unordered
    · exact ⟨.refl _, .refl _, fun _ => rfl⟩
    · exact ⟨s.perm _ _, s.perm _ _, fun e => by cases e⟩

example : rowsEqual insertionSort [[some (.int 2#64)], [none, some (.str [97#8])]]
    [[none, some (.str [97#8])], [some (.int 2#64)]] true =
      (true, [[none, some (.str [97#8])], [some (.int 2#64)]],
        [[none, some (.str [97#8])], [some (.int 2#64)]]) ∧
    (rowsEqual insertionSort [[some (.int 2#64)], [none]] [[none], [some (.int 2#64)]] false).1 =
      false ∧
    (rowsEqual insertionSort [[none]] [[none], [none]] true).1 = false ∧
    (rowsEqual insertionSort [[none]] [[none, none]] true).1 = false := by decide +kernel

theorem rowsEqual_one (s : SortSlice) (a b : Row) :
    (rowsEqual s [a] [b] false).1 = sameRows [a] [b] := rfl

/-- A NaN. -/
def rowNaN : Option Value := some (.float 0x7FF8000000000001#64)

/-- C75 fails: a row with a NaN equals every row with another number there. -/
theorem C75_nan_equals_all (s : SortSlice) :
    (rowsEqual s [[rowNaN]] [[some (.int 1#64)]] false).1 = true ∧
      ¬ SameRows [[rowNaN]] [[some (.int 1#64)]] := by
  refine ⟨?_, ?_⟩
  · rw [rowsEqual_one]
    decide +kernel
  · intro h
    cases h with
    | cons _ _ _ _ h _ =>
      cases h with
      | cons _ _ _ _ h _ => exact absurd h (by decide +kernel)

/-- C75 fails: with a NaN the same rows in another order are not equal. -/
theorem C75_nan_order :
    (rowsEqual insertionSort [[some (.int 2#64)], [rowNaN], [some (.int 1#64)]]
      [[some (.int 1#64)], [rowNaN], [some (.int 2#64)]] true).1 = false := by decide +kernel

/-- C75 fails: an integer beyond 2^53 equals a floating point number with another value. -/
theorem C75_big_integer (s : SortSlice) :
    (rowsEqual s [[some (.int 9007199254740993#64)]] [[some (.float 0x4340000000000000#64)]]
      false).1 = true ∧
    ¬ SameRows [[some (.int 9007199254740993#64)]] [[some (.float 0x4340000000000000#64)]] := by
  refine ⟨?_, ?_⟩
  · rw [rowsEqual_one]
    decide +kernel
  · intro h
    cases h with
    | cons _ _ _ _ h _ =>
      cases h with
      | cons _ _ _ _ h _ => exact absurd h (by decide +kernel)

end Maho
