import Verif.Model.ReadScan
import Verif.Spec.Position
import Verif.Spec.Scan
/-
The scanner with `readRune` and `unreadRune` does what the scanner on lists does.
-/
namespace Maho
open Maho.Spec

theorem lineOf_append (d : List Nat) (r : Nat) :
    lineOf (d ++ [r]) = if r = 10 then lineOf d + 1 else lineOf d := by
  unfold lineOf
  rw [List.count_append, List.count_singleton]
  by_cases h : r = 10
  · simp [h]; omega
  · simp [h]

theorem columnOf_append (d : List Nat) (r : Nat) :
    columnOf (d ++ [r]) = if r = 10 then 0 else columnOf d + 1 := by
  unfold columnOf
  by_cases h : r = 10 <;> simp [h]

namespace Scanner

/-- The runes that `readRune` returns from here on. -/
def rest (s : Scanner) : List Nat :=
  (if s.unread = true ∧ 0 ≤ s.read then [s.read.toNat] else []) ++ s.runes

/-- The scanner is in the text `L`, with `l` left to be read. Without a text its place is not known. -/
structure Tracks (fails : Bool) (L : Option (List Nat)) (s : Scanner) (l : List Nat) : Prop where
  rest : s.rest = l
  ok : s.unread = true → s.read = -1 ∧ s.runes = [] ∧ fails = false ∨ 0 ≤ s.read
  place : ∀ T, L = some T → ∃ d, T = d ++ s.runes ∧ s.line = lineOf d ∧ s.column = columnOf d ∧
    (s.unread = true → 0 ≤ s.read → fails = false → ∃ d', d = d' ++ [s.read.toNat])

variable {fails : Bool} {L : Option (List Nat)}

theorem Tracks.init (L : List Nat) : Tracks fails L (init L) L :=
  ⟨rfl, (fun h => by cases h), fun _ e => ⟨[], (Option.some.inj e).symm, rfl, rfl, (fun h => by cases h)⟩⟩

/-- Reading a rune. -/
theorem Tracks.read {s : Scanner} {r : Nat} {l : List Nat} (h : Tracks fails L s (r :: l)) :
    ∃ s', s.readRune fails = ((r : Int), s') ∧ Tracks fails L s' l ∧ s'.unread = false ∧
      s'.buf = s.buf ∧ Tracks fails L s'.unreadRune (r :: l) ∧
      (fails = false → ∀ T, L = some T → ∃ d, T = d ++ r :: l ∧ s'.line = lineOf (d ++ [r]) ∧
        s'.column = columnOf (d ++ [r])) := by
  obtain ⟨h1, h2, hpl⟩ := h
  unfold Scanner.rest at h1
  cases hu : s.unread with
  | true =>
    rcases h2 hu with ⟨e, e2, e3⟩ | hr
    · rw [e, e2] at h1
      simp at h1
    · rw [if_pos ⟨hu, hr⟩] at h1
      simp only [List.singleton_append, List.cons.injEq] at h1
      obtain ⟨e1, e2⟩ := h1
      have e3 : s.read = (r : Int) := by omega
      refine ⟨{ s with unread := false }, by simp [readRune, hu, e3], ⟨?_, ?_, ?_⟩, rfl, rfl,
        ⟨?_, ?_, ?_⟩, ?_⟩
      · simp [Scanner.rest, e2]
      · intro h; cases h
      · intro T eT
        obtain ⟨d, h3, h4, h5, h6⟩ := hpl T eT
        exact ⟨d, h3, h4, h5, fun h => by cases h⟩
      · simp [Scanner.rest, unreadRune, e2, e3]
      · intro _; exact .inr hr
      · intro T eT
        obtain ⟨d, h3, h4, h5, h6⟩ := hpl T eT
        exact ⟨d, h3, h4, h5, fun _ => h6 hu⟩
      · intro hf T eT
        obtain ⟨d, h3, h4, h5, h6⟩ := hpl T eT
        obtain ⟨d', e4⟩ := h6 hu hr hf
        refine ⟨d', ?_, ?_, ?_⟩
        · rw [h3, e4, e2, e1]; simp
        · rw [← e1, ← e4]; exact h4
        · rw [← e1, ← e4]; exact h5
  | false =>
    rw [if_neg (by simp [hu])] at h1
    simp only [List.nil_append] at h1
    have hat : ∀ T, L = some T → ∃ d, T = (d ++ [r]) ++ l ∧
        (if r = '\n'.toNat then s.line + 1 else s.line) = lineOf (d ++ [r]) ∧
        (if r = '\n'.toNat then 0 else s.column + 1) = columnOf (d ++ [r]) := by
      intro T eT
      obtain ⟨d, h3, h4, h5, h6⟩ := hpl T eT
      refine ⟨d, by rw [h3, h1]; simp, ?_, ?_⟩
      · rw [lineOf_append, h4]; rfl
      · rw [columnOf_append, h5]; rfl
    refine ⟨{ s with
        read := r
        runes := l
        line := if r = '\n'.toNat then s.line + 1 else s.line
        column := if r = '\n'.toNat then 0 else s.column + 1 },
      by simp [readRune, hu, h1], ⟨?_, ?_, ?_⟩, hu, rfl, ⟨?_, ?_, ?_⟩, ?_⟩
    · simp [Scanner.rest, hu]
    · intro h; simp [hu] at h
    · intro T eT
      obtain ⟨d, hl, hp1, hp2⟩ := hat T eT
      exact ⟨d ++ [r], hl, hp1, hp2, fun h => by simp [hu] at h⟩
    · simp [Scanner.rest, unreadRune]
    · intro _; exact .inr (Int.natCast_nonneg r)
    · intro T eT
      obtain ⟨d, hl, hp1, hp2⟩ := hat T eT
      exact ⟨d ++ [r], hl, hp1, hp2, fun _ _ _ => ⟨d, by simp [unreadRune]⟩⟩
    · intro _ T eT
      obtain ⟨d, hl, hp1, hp2⟩ := hat T eT
      exact ⟨d, by rw [hl]; simp, hp1, hp2⟩

/-- Reading at the end of the input. -/
theorem Tracks.readEnd {s : Scanner} (h : Tracks fails L s []) :
    ∃ s', s.readRune fails = (if fails then -3 else -1, s') ∧ Tracks fails L s' [] ∧
      s'.unread = false ∧ s'.buf = s.buf ∧ Tracks fails L s'.unreadRune (reread fails []) := by
  obtain ⟨h1, h2, hpl⟩ := h
  unfold Scanner.rest at h1
  cases hu : s.unread with
  | true =>
    rcases h2 hu with ⟨e, e2, e3⟩ | hr
    · subst e3
      refine ⟨{ s with unread := false }, by simp [readRune, hu, e], ⟨?_, ?_, ?_⟩, rfl, rfl,
        ⟨?_, ?_, ?_⟩⟩
      · simp [Scanner.rest, e2]
      · intro h; cases h
      · intro T eT
        obtain ⟨d, h3, h4, h5, h6⟩ := hpl T eT
        exact ⟨d, h3, h4, h5, fun h => by cases h⟩
      · simp [Scanner.rest, unreadRune, e, e2, reread]
      · intro _; exact .inl ⟨e, e2, rfl⟩
      · intro T eT
        obtain ⟨d, h3, h4, h5, h6⟩ := hpl T eT
        exact ⟨d, h3, h4, h5, fun _ h => absurd h (by simp [unreadRune, e])⟩
    · rw [if_pos ⟨hu, hr⟩] at h1
      simp at h1
  | false =>
    rw [if_neg (by simp [hu])] at h1
    simp only [List.nil_append] at h1
    cases fails with
    | true =>
      refine ⟨{ s with read := 0 }, by simp [readRune, hu, h1], ⟨?_, ?_, ?_⟩, hu, rfl, ⟨?_, ?_, ?_⟩⟩
      · simp [Scanner.rest, hu, h1]
      · intro h; simp [hu] at h
      · intro T eT
        obtain ⟨d, h3, h4, h5, h6⟩ := hpl T eT
        exact ⟨d, h3, h4, h5, fun h => by simp [hu] at h⟩
      · simp [Scanner.rest, unreadRune, h1, reread]
      · intro _; exact .inr (Int.le_refl 0)
      · intro T eT
        obtain ⟨d, h3, h4, h5, h6⟩ := hpl T eT
        exact ⟨d, h3, h4, h5, fun _ _ h => by cases h⟩
    | false =>
      refine ⟨{ s with read := -1 }, by simp [readRune, hu, h1], ⟨?_, ?_, ?_⟩, hu, rfl, ⟨?_, ?_, ?_⟩⟩
      · simp [Scanner.rest, hu, h1]
      · intro h; simp [hu] at h
      · intro T eT
        obtain ⟨d, h3, h4, h5, h6⟩ := hpl T eT
        exact ⟨d, h3, h4, h5, fun h => by simp [hu] at h⟩
      · simp [Scanner.rest, unreadRune, h1, reread]
      · intro _; exact .inl ⟨rfl, h1, rfl⟩
      · intro T eT
        obtain ⟨d, h3, h4, h5, h6⟩ := hpl T eT
        exact ⟨d, h3, h4, h5, fun _ h => absurd h (by simp [unreadRune])⟩

theorem Tracks.setBuf {s : Scanner} {l : List Nat} (h : Tracks fails L s l) (b : Bytes) :
    Tracks fails L { s with buf := b } l := ⟨h.rest, h.ok, h.place⟩

theorem Tracks.write {s : Scanner} {l : List Nat} (h : Tracks fails L s l) (r : Int) :
    Tracks fails L (s.write r) l := h.setBuf _

theorem Tracks.fuel {s : Scanner} {l : List Nat} (h : Tracks fails L s l) : l.length < s.fuel := by
  have := h.rest
  unfold Scanner.rest at this
  unfold Scanner.fuel
  rw [← this]
  split <;> simp

/-- A result of a function of the scanner, and of the same function on lists. -/
def Agrees (fails : Bool) (L : Option (List Nat)) (o : Token × Scanner) (c : Scanned) : Prop :=
  o.1 = c.token ∧ o.2.buf = c.buf ∧ Tracks fails L o.2 c.rest

theorem agrees_identifier (env : ScanEnv) : ∀ (n r : Nat) (s : Scanner) (l : List Nat),
    Tracks fails L s l → l.length < n →
    Agrees fails L (scanIdentifier env fails n r s) (Maho.scanIdentifier env fails (s.buf ++ runeBytes r) l)
  | 0, _, _, _, _, hn => absurd hn (by omega)
  | n + 1, r, s, l, h, hn => by
    unfold Scanner.scanIdentifier
    have hw := h.write (r : Int)
    cases l with
    | nil =>
      obtain ⟨s', e, h1, h2, h3, h4⟩ := hw.readEnd
      simp only [e, Maho.scanIdentifier]
      cases fails
      · exact ⟨by simp [h3]; rfl, h3, h1⟩
      · exact ⟨rfl, h3, h1⟩
    | cons r2 l =>
      obtain ⟨s', e, h1, h2, h3, h4, -⟩ := hw.read
      simp only [e, Maho.scanIdentifier]
      rw [if_neg (by omega), if_neg (by omega), Int.toNat_natCast]
      split
      · have := agrees_identifier env n r2 s' l h1 (by simp at hn; omega)
        rw [h3] at this
        exact this
      · exact ⟨by simp [h3]; rfl, h3, h4⟩

theorem natEq (r c : Nat) : ((r : Int) = (c : Int)) = (r = c) := propext Int.ofNat_inj

theorem natLe (r c : Nat) : ((r : Int) ≤ (c : Int)) = (r ≤ c) := propext Int.ofNat_le

theorem not_neg (r : Nat) : ¬ ((r : Int) < 0) := by omega

theorem isDigit_nat (env : ScanEnv) (r : Nat) : isDigit env (r : Int) = env.digit r := by
  simp [isDigit]

theorem isDigit_end (env : ScanEnv) : isDigit env (if fails then -3 else -1) = false := by
  cases fails <;> simp [isDigit]

theorem agrees_number (env : ScanEnv) (neg : Bool) : ∀ (n : Nat) (dbl : Bool) (r : Nat) (s : Scanner)
    (l : List Nat), Tracks fails L s l → l.length < n →
    Agrees fails L (scanNumber env fails neg n dbl r s)
      (Maho.scanNumber env fails neg dbl (s.buf ++ runeBytes r) l)
  | 0, _, _, _, _, _, hn => absurd hn (by omega)
  | n + 1, dbl, r, s, l, h, hn => by
    unfold Scanner.scanNumber
    have hw := h.write (r : Int)
    cases l with
    | nil =>
      obtain ⟨s', e, h1, h2, h3, h4⟩ := hw.readEnd
      simp only [e, Maho.scanNumber]
      cases fails
      · exact ⟨by simp [h3]; rfl, h3, h1⟩
      · exact ⟨rfl, h3, h1⟩
    | cons r2 l =>
      obtain ⟨s', e, h1, h2, h3, h4, -⟩ := hw.read
      have hb : s'.buf = s.buf ++ runeBytes r := h3
      simp only [e, Maho.scanNumber]
      rw [if_neg (by omega), if_neg (by omega), isDigit_nat]
      have hd : ((r2 : Int) == (('.'.toNat : Nat) : Int)) = (r2 == '.'.toNat) := by
        rw [Bool.eq_iff_iff, beq_iff_eq, beq_iff_eq, natEq]
      rw [hd]
      have hn' : l.length < n := by simp at hn; omega
      split
      · have := agrees_number env neg n true r2 s' l h1 hn'
        rwa [hb] at this
      · split
        · have := agrees_number env neg n dbl r2 s' l h1 hn'
          rwa [hb] at this
        · exact ⟨by simp [hb], hb, h4⟩

theorem agrees_parameter (env : ScanEnv) : ∀ (n r : Nat) (s : Scanner) (l : List Nat),
    Tracks fails L s l → l.length < n →
    Agrees fails L (scanParameter env fails n r s)
      (Maho.scanParameter env fails (s.buf ++ runeBytes r) l)
  | 0, _, _, _, _, hn => absurd hn (by omega)
  | n + 1, r, s, l, h, hn => by
    unfold Scanner.scanParameter
    have hw := h.write (r : Int)
    cases l with
    | nil =>
      obtain ⟨s', e, h1, h2, h3, h4⟩ := hw.readEnd
      simp only [e, Maho.scanParameter]
      cases fails
      · exact ⟨by simp [h3]; rfl, h3, h1⟩
      · exact ⟨rfl, h3, h1⟩
    | cons r2 l =>
      obtain ⟨s', e, h1, h2, h3, h4, -⟩ := hw.read
      have hb : s'.buf = s.buf ++ runeBytes r := h3
      simp only [e, Maho.scanParameter]
      rw [if_neg (by omega), if_neg (by omega), isDigit_nat]
      split
      · have := agrees_parameter env n r2 s' l h1 (by simp at hn; omega)
        rwa [hb] at this
      · exact ⟨by simp [hb], hb, h4⟩

theorem end_cases : (if fails then (-3 : Int) else -1) = -1 ∨ (if fails then (-3 : Int) else -1) = -3 := by
  cases fails <;> simp

theorem end_neg : (if fails then (-3 : Int) else -1) < 0 := by
  cases fails <;> simp

theorem agrees_quotedIdentifier (env : ScanEnv) (delim : Nat) : ∀ (n : Nat) (s : Scanner)
    (l : List Nat), Tracks fails L s l → l.length < n →
    Agrees fails L (scanQuotedIdentifier env fails delim n s)
      (Maho.scanQuotedIdentifier env delim s.buf l)
  | 0, _, _, _, hn => absurd hn (by omega)
  | n + 1, s, l, h, hn => by
    unfold Scanner.scanQuotedIdentifier
    cases l with
    | nil =>
      obtain ⟨s', e, h1, h2, h3, h4⟩ := h.readEnd
      simp only [e, Maho.scanQuotedIdentifier]
      rw [if_pos end_cases]
      exact ⟨rfl, h3, h1⟩
    | cons r2 l =>
      obtain ⟨s', e, h1, h2, h3, h4, -⟩ := h.read
      simp only [e, Maho.scanQuotedIdentifier]
      rw [if_neg (by omega)]
      by_cases hd : r2 = delim
      · rw [if_pos (by omega), if_pos hd]
        exact ⟨by simp [h3], h3, h1⟩
      · rw [if_neg (by omega), if_neg hd]
        have := agrees_quotedIdentifier env delim n (s'.write r2) l (h1.write _) (by simp at hn; omega)
        have hb : (s'.write r2).buf = s.buf ++ runeBytes r2 := by simp [Scanner.write, h3]
        rwa [hb] at this

theorem agrees_hexDigit {s : Scanner} {l : List Nat} (h : Tracks fails L s l) :
    ∃ s', Tracks fails L s' l.tail ∧ s'.buf = s.buf ∧
      s.scanHexDigit fails = (match l with | [] => none | r :: _ => hexDigit r, s') := by
  unfold scanHexDigit
  cases l with
  | nil =>
    obtain ⟨s', e, h1, h2, h3, h4⟩ := h.readEnd
    exact ⟨s', h1, h3, by simp [e, end_neg]⟩
  | cons r l =>
    obtain ⟨s', e, h1, h2, h3, h4, -⟩ := h.read
    refine ⟨s', h1, h3, ?_⟩
    simp only [e]
    rw [if_neg (by omega), Int.toNat_natCast]

theorem agrees_octalDigit {s : Scanner} {l : List Nat} (h : Tracks fails L s l) :
    ∃ s', Tracks fails L s' l.tail ∧ s'.buf = s.buf ∧
      s.scanOctalDigit fails = (match l with | [] => none | r :: _ => octalDigit r, s') := by
  unfold scanOctalDigit
  cases l with
  | nil =>
    obtain ⟨s', e, h1, h2, h3, h4⟩ := h.readEnd
    exact ⟨s', h1, h3, by simp [e, end_neg]⟩
  | cons r l =>
    obtain ⟨s', e, h1, h2, h3, h4, -⟩ := h.read
    refine ⟨s', h1, h3, ?_⟩
    simp only [e]
    rw [if_neg (by omega), Int.toNat_natCast]

theorem agrees_unicode : ∀ (n u : Nat) (s : Scanner) (l : List Nat), Tracks fails L s l →
    ∃ s', Tracks fails L s' (Maho.scanUnicode u n l).2 ∧ s'.buf = s.buf ∧
      scanUnicode fails u n s = ((Maho.scanUnicode u n l).1, s')
  | 0, u, s, l, h => ⟨s, h, rfl, rfl⟩
  | n + 1, u, s, l, h => by
    obtain ⟨s', h1, h2, e⟩ := agrees_hexDigit h
    unfold Scanner.scanUnicode
    rw [e]
    cases l with
    | nil => exact ⟨s', h1, h2, rfl⟩
    | cons r l =>
      simp only [Maho.scanUnicode]
      cases hexDigit r with
      | none => exact ⟨s', h1, h2, rfl⟩
      | some d =>
        obtain ⟨s2, h3, h4, e2⟩ := agrees_unicode n (u * 16 + d) s' l h1
        exact ⟨s2, h3, h4.trans h2, e2⟩

theorem agrees_octal : ∀ (n u : Nat) (s : Scanner) (l : List Nat), Tracks fails L s l →
    ∃ s', Tracks fails L s' (Maho.scanOctal u n l).2 ∧ s'.buf = s.buf ∧
      scanOctal fails u n s = ((Maho.scanOctal u n l).1, s')
  | 0, u, s, l, h => ⟨s, h, rfl, rfl⟩
  | n + 1, u, s, l, h => by
    obtain ⟨s', h1, h2, e⟩ := agrees_octalDigit h
    unfold Scanner.scanOctal
    rw [e]
    cases l with
    | nil => exact ⟨s', h1, h2, rfl⟩
    | cons r l =>
      simp only [Maho.scanOctal]
      cases octalDigit r with
      | none => exact ⟨s', h1, h2, rfl⟩
      | some d =>
        obtain ⟨s2, h3, h4, e2⟩ := agrees_octal n ((u * 8 + d) % 256) s' l h1
        exact ⟨s2, h3, h4.trans h2, e2⟩

theorem agrees_escape {s : Scanner} {l : List Nat} (h : Tracks fails L s l) :
    ∃ s', Tracks fails L s' (Maho.scanEscape l).2 ∧ s'.buf = s.buf ∧
      s.scanEscape fails = ((Maho.scanEscape l).1, s') := by
  unfold Scanner.scanEscape
  cases l with
  | nil =>
    obtain ⟨s', e, h1, h2, h3, h4⟩ := h.readEnd
    exact ⟨s', h1, h3, by simp [e, end_neg, Maho.scanEscape]⟩
  | cons r l =>
    obtain ⟨s', e, h1, h2, h3, h4, -⟩ := h.read
    simp only [e, Maho.scanEscape]
    rw [if_neg (not_neg r), Int.toNat_natCast]
    simp only [natEq, natLe]
    cases simpleEscapes.lookup r with
    | some c => exact ⟨s', h1, h3, rfl⟩
    | none =>
      dsimp only
      split
      · obtain ⟨s2, h5, h6, e2⟩ := agrees_unicode 2 0 s' l h1
        exact ⟨s2, h5, h6.trans h3, by rw [e2]⟩
      · split
        · obtain ⟨s2, h5, h6, e2⟩ := agrees_unicode 4 0 s' l h1
          exact ⟨s2, h5, h6.trans h3, by rw [e2]⟩
        · split
          · obtain ⟨s2, h5, h6, e2⟩ := agrees_unicode 8 0 s' l h1
            exact ⟨s2, h5, h6.trans h3, by rw [e2]⟩
          · split
            · obtain ⟨s2, h5, h6, e2⟩ := agrees_octal 2 (r - '0'.toNat) s' l h1
              exact ⟨s2, h5, h6.trans h3, by rw [e2]⟩
            · exact ⟨s', h1, h3, rfl⟩

theorem agrees_gap : ∀ (n : Nat) (nl : Bool) (r : Nat) (s : Scanner) (l : List Nat),
    Tracks fails L s l → Tracks fails L s.unreadRune (r :: l) → l.length + 1 < n →
    ∃ s', s'.buf = s.buf ∧
      (match Maho.skipGap nl (r :: l) with
      | (nl', []) => skipGap fails n nl r s = (nl', if fails then -3 else -1, s') ∧
          Tracks fails L s' [] ∧ Tracks fails L s'.unreadRune (reread fails [])
      | (nl', r3 :: l3) => skipGap fails n nl r s = (nl', (r3 : Int), s') ∧
          Tracks fails L s' l3 ∧ Tracks fails L s'.unreadRune (r3 :: l3))
  | 0, _, _, _, _, _, _, hn => absurd hn (by omega)
  | n + 1, nl, r, s, l, h, hu, hn => by
    unfold Scanner.skipGap
    rw [if_neg (not_neg r), Int.toNat_natCast]
    have e10 : ((r : Int) == 10) = (r == 10) := by
      rw [Bool.eq_iff_iff, beq_iff_eq, beq_iff_eq]; exact Int.ofNat_inj
    have e13 : ((r : Int) == 13) = (r == 13) := by
      rw [Bool.eq_iff_iff, beq_iff_eq, beq_iff_eq]; exact Int.ofNat_inj
    rw [e10, e13]
    unfold Maho.skipGap
    by_cases hs : isSpace r = true
    · rw [if_pos hs, if_pos hs]
      cases l with
      | nil =>
        obtain ⟨s', e, h1, h2, h3, h4⟩ := h.readEnd
        refine ⟨s', h3, ?_⟩
        rw [e]
        unfold Maho.skipGap
        cases n with
        | zero => exact ⟨rfl, h1, h4⟩
        | succ n =>
          dsimp only
          unfold Scanner.skipGap
          rw [if_pos end_neg]
          exact ⟨rfl, h1, h4⟩
      | cons r2 l =>
        obtain ⟨s', e, h1, h2, h3, h4, -⟩ := h.read
        rw [e]
        obtain ⟨s2, h5, h6⟩ := agrees_gap n (nl || r == 10 || r == 13) r2 s' l h1 h4
          (by simp at hn; omega)
        exact ⟨s2, h5.trans h3, h6⟩
    · rw [if_neg hs, if_neg hs]
      exact ⟨s, rfl, rfl, h, hu⟩

theorem quoted_step (fails esc : Bool) (buf : Bytes) (r : Nat) (rest : List Nat) :
    Maho.scanQuotedConstant fails esc buf (r :: rest) =
      if r = '\''.toNat then
        match rest with
        | [] => (none, buf, reread fails [])
        | r2 :: rest2 =>
          if isSpace r2 then
            match Maho.skipGap (r2 == 10 || r2 == 13) rest2 with
            | (_, []) => if fails then (some false, buf, []) else (none, buf, [])
            | (nl, r3 :: rest3) =>
              if r3 = '\''.toNat ∧ nl = true then Maho.scanQuotedConstant fails esc buf rest3
              else (none, buf, r3 :: rest3)
          else if r2 ≠ '\''.toNat then (none, buf, r2 :: rest2)
          else Maho.scanQuotedConstant fails esc (buf ++ runeBytes r2) rest2
      else if r = '\\'.toNat ∧ esc = true then
        match Maho.scanEscape rest with
        | (none, rest2) => (some false, buf, rest2)
        | (some r2, rest2) =>
          if r2 = -1 then (some false, buf, rest2)
          else if r2 = -3 then (some true, buf, rest2)
          else Maho.scanQuotedConstant fails esc (buf ++ runeBytes r2) rest2
      else Maho.scanQuotedConstant fails esc (buf ++ runeBytes r) rest := by
  rw [Maho.scanQuotedConstant.eq_def]
  dsimp only
  by_cases hq : r = '\''.toNat
  · rw [if_pos hq, if_pos hq]
    cases rest with
    | nil => rfl
    | cons r2 rest2 =>
      dsimp only
      by_cases hs : isSpace r2 = true
      · rw [if_pos hs, if_pos hs]
        split <;> rename_i h <;> rw [h]
      · rw [if_neg hs, if_neg hs]
  · rw [if_neg hq, if_neg hq]
    by_cases hb : r = '\\'.toNat ∧ esc = true
    · rw [if_pos hb, if_pos hb]
      split <;> rename_i h <;> rw [h]
    · rw [if_neg hb, if_neg hb]

/-- `scanQuotedConstant` and the same function on lists. -/
def Quoted (fails : Bool) (L : Option (List Nat)) (o : Option Bool × Scanner)
    (c : Option Bool × Bytes × List Nat) : Prop :=
  o.1 = c.1 ∧ o.2.buf = c.2.1 ∧ Tracks fails L o.2 c.2.2 ∧ (o.1 = none → o.2.unread = true)

theorem agrees_quotedConstant (esc : Bool) : ∀ (n : Nat) (s : Scanner) (l : List Nat),
    Tracks fails L s l → l.length < n →
    Quoted fails L (scanQuotedConstant fails esc n s) (Maho.scanQuotedConstant fails esc s.buf l)
  | 0, _, _, _, hn => absurd hn (by omega)
  | n + 1, s, l, h, hn => by
    unfold Scanner.scanQuotedConstant
    cases l with
    | nil =>
      obtain ⟨s', e, h1, h2, h3, h4⟩ := h.readEnd
      rw [Maho.scanQuotedConstant]
      simp only [e]
      rw [if_pos end_cases]
      exact ⟨rfl, h3, h1, fun h => by cases h⟩
    | cons r l =>
      obtain ⟨s1, e, h1, h2, h3, h4, -⟩ := h.read
      rw [quoted_step]
      simp only [e]
      rw [if_neg (by omega)]
      simp only [natEq]
      have hl : l.length < n := by simp at hn; omega
      by_cases hq : r = '\''.toNat
      · rw [if_pos hq, if_pos hq]
        cases l with
        | nil =>
          obtain ⟨s', e, h1, h2, h3', h4⟩ := h1.readEnd
          simp only [e]
          rw [if_neg (fun hh => absurd hh.1 (Int.not_le.2 end_neg)),
            if_pos (fun hh => by have := end_neg (fails := fails); omega)]
          exact ⟨rfl, h3'.trans h3, h4, fun _ => rfl⟩
        | cons r2 l =>
          obtain ⟨s2, e, h1, h2, h3', h4, -⟩ := h1.read
          simp only [e]
          rw [Int.toNat_natCast]
          by_cases hs : isSpace r2 = true
          · rw [if_pos ⟨Int.natCast_nonneg r2, hs⟩, if_pos hs]
            obtain ⟨s3, h5, h6⟩ := agrees_gap s2.fuel false r2 s2 l h1 h4 (by
              have := h1.rest
              rw [Scanner.rest, if_neg (by simp [h2])] at this
              simp only [List.nil_append] at this
              rw [Scanner.fuel, this]
              omega)
            have eg : Maho.skipGap false (r2 :: l) = Maho.skipGap (r2 == 10 || r2 == 13) l := by
              rw [Maho.skipGap, if_pos hs, Bool.false_or]
            rw [eg] at h6
            have hg := skipGap_length (r2 == 10 || r2 == 13) l
            split at h6
            · next nl' eg' =>
              rw [h6.1]
              dsimp only
              rw [if_neg (fun hh => by have := end_neg (fails := fails); omega)]
              cases fails with
              | true => exact ⟨rfl, h5.trans (h3'.trans h3), h6.2.1, fun h => by cases h⟩
              | false => exact ⟨rfl, h5.trans (h3'.trans h3), h6.2.2, fun _ => rfl⟩
            · next nl' r3 l3 eg' =>
              rw [h6.1]
              dsimp only
              simp only [natEq]
              by_cases hc : r3 = '\''.toNat ∧ nl' = true
              · rw [if_pos hc, if_pos hc]
                have := agrees_quotedConstant esc n s3 l3 h6.2.1 (by
                  rw [eg'] at hg
                  simp at hn hg
                  omega)
                rwa [h5.trans (h3'.trans h3)] at this
              · rw [if_neg hc, if_neg hc, if_neg (by omega)]
                exact ⟨rfl, h5.trans (h3'.trans h3), h6.2.2, fun _ => rfl⟩
          · rw [if_neg (fun hh => hs hh.2), if_neg hs]
            simp only [ne_eq, natEq]
            by_cases hq2 : r2 = '\''.toNat
            · rw [if_neg (not_not_intro hq2), if_neg (not_not_intro hq2)]
              have := agrees_quotedConstant esc n (s2.write r2) l (h1.write _) (by simp at hn; omega)
              have hb : (s2.write r2).buf = s.buf ++ runeBytes r2 := by simp [Scanner.write, h3, h3']
              rwa [hb] at this
            · rw [if_pos hq2, if_pos hq2]
              exact ⟨rfl, h3'.trans h3, h4, fun _ => rfl⟩
      · rw [if_neg hq, if_neg hq]
        by_cases hb : r = '\\'.toNat ∧ esc = true
        · rw [if_pos hb, if_pos hb]
          obtain ⟨s2, h5, h6, e2⟩ := agrees_escape h1
          have hlen := scanEscape_length l
          rw [e2]
          revert h5 hlen
          generalize Maho.scanEscape l = o
          obtain ⟨o, l2⟩ := o
          intro h5 hlen
          cases o with
          | none => exact ⟨rfl, h6.trans h3, h5, fun h => by cases h⟩
          | some r2 =>
            dsimp only
            split
            · exact ⟨rfl, h6.trans h3, h5, fun h => by cases h⟩
            · split
              · exact ⟨rfl, h6.trans h3, h5, fun h => by cases h⟩
              · have := agrees_quotedConstant esc n (s2.write r2) l2 (h5.write _) (by
                  simp at hlen
                  omega)
                have hb : (s2.write r2).buf = s.buf ++ runeBytes r2 := by
                  simp [Scanner.write, h3, h6]
                rwa [hb] at this
        · rw [if_neg hb, if_neg hb]
          have := agrees_quotedConstant esc n (s1.write r) l (h1.write _) hl
          have hb : (s1.write r).buf = s.buf ++ runeBytes r := by simp [Scanner.write, h3]
          rwa [hb] at this

theorem agrees_string (esc : Bool) {s : Scanner} {l : List Nat} (h : Tracks fails L s l)
    (hb : s.buf = []) : Agrees fails L (s.scanString fails esc) (Maho.scanString fails esc l) ∧
      ((s.scanString fails esc).2.unread = false → ∃ b, (s.scanString fails esc).1 = .error b) := by
  have := agrees_quotedConstant esc s.fuel s l h h.fuel
  unfold Scanner.scanString Maho.scanString
  rw [hb] at this
  revert this
  generalize scanQuotedConstant fails esc s.fuel s = o
  generalize Maho.scanQuotedConstant fails esc [] l = c
  obtain ⟨o, s'⟩ := o
  obtain ⟨c, b, l'⟩ := c
  rintro ⟨h1, h2, h3, h4⟩
  dsimp only at h1 h2 h3 h4
  subst h1
  cases o with
  | some i => exact ⟨⟨rfl, h2, h3⟩, fun _ => ⟨i, rfl⟩⟩
  | none => exact ⟨⟨by simp [h2], h2, h3⟩, fun h => by rw [h4 rfl] at h; cases h⟩

theorem agrees_bytes (esc : Bool) {s : Scanner} {l : List Nat} (h : Tracks fails L s l)
    (hb : s.buf = []) : Agrees fails L (s.scanBytes fails esc) (Maho.scanBytes fails esc l) := by
  have := agrees_quotedConstant esc s.fuel s l h h.fuel
  unfold Scanner.scanBytes Maho.scanBytes
  rw [hb] at this
  revert this
  generalize scanQuotedConstant fails esc s.fuel s = o
  generalize Maho.scanQuotedConstant fails esc [] l = c
  obtain ⟨o, s'⟩ := o
  obtain ⟨c, b, l'⟩ := c
  rintro ⟨h1, h2, h3, h4⟩
  dsimp only at h1 h2 h3
  subst h1
  cases o with
  | some i => exact ⟨rfl, h2, h3⟩
  | none => exact ⟨by simp [h2], h2, h3⟩

theorem agrees_hexBytes : ∀ (n : Nat) (s : Scanner) (l : List Nat), Tracks fails L s l →
    l.length < n → Agrees fails L (scanHexBytes fails n s) (Maho.scanHexBytes s.buf l)
  | 0, _, _, _, hn => absurd hn (by omega)
  | n + 1, s, l, h, hn => by
    unfold Scanner.scanHexBytes
    cases l with
    | nil =>
      obtain ⟨s', e, h1, h2, h3, h4⟩ := h.readEnd
      simp only [e]
      rw [if_pos end_cases]
      exact ⟨rfl, h3, h1⟩
    | cons r l =>
      obtain ⟨s1, e, h1, h2, h3, h4, -⟩ := h.read
      simp only [e]
      rw [if_neg (by omega)]
      simp only [natEq]
      rw [Maho.scanHexBytes.eq_def]
      dsimp only
      by_cases hq : r = '\''.toNat
      · rw [if_pos hq, if_pos hq]
        exact ⟨by simp [h3], h3, h1⟩
      · rw [if_neg hq, if_neg hq]
        obtain ⟨s2, h5, h6, e2⟩ := agrees_hexDigit h4
        have h6' : s2.buf = s.buf := h6.trans h3
        rw [e2]
        dsimp only
        cases hexDigit r with
        | none => exact ⟨rfl, h6', h5⟩
        | some d1 =>
          dsimp only
          obtain ⟨s3, h7, h8, e3⟩ := agrees_hexDigit h5
          rw [e3]
          dsimp only [List.tail_cons]
          cases l with
          | nil => exact ⟨rfl, h8.trans h6', h7⟩
          | cons r2 l =>
            dsimp only
            cases hexDigit r2 with
            | none => exact ⟨rfl, h8.trans h6', h7⟩
            | some d2 =>
              dsimp only
              have := agrees_hexBytes n { s3 with buf := s3.buf ++ [BitVec.ofNat 8 (d1 * 16 + d2)] }
                l (h7.setBuf _) (by simp at hn; omega)
              dsimp only at this
              rwa [h8.trans h6'] at this ⊢

theorem agrees_operator (r : Nat) {s : Scanner} {l : List Nat} (h : Tracks fails L s l)
    (hb : s.buf = []) : Agrees fails L (scanOperator fails r s) (Maho.scanOperator fails r l) := by
  unfold Scanner.scanOperator
  have hw := h.write (r : Int)
  have hb' : (s.write (r : Int)).buf = runeBytes r := by simp [Scanner.write, hb]
  cases l with
  | nil =>
    obtain ⟨s', e, h1, h2, h3, h4⟩ := hw.readEnd
    simp only [e]
    rw [if_neg (by have := end_neg (fails := fails); omega),
      if_neg (fun hh => absurd hh.1 (Int.not_le.2 end_neg))]
    exact ⟨rfl, h3.trans hb', h4⟩
  | cons r2 l =>
    obtain ⟨s', e, h1, h2, h3, h4, -⟩ := hw.read
    simp only [e, Maho.scanOperator, natEq, Int.toNat_natCast]
    split
    · exact ⟨rfl, h3.trans hb', h4⟩
    · by_cases ho : isOpRune r2 = true
      · rw [if_pos ⟨Int.natCast_nonneg r2, ho⟩, if_pos ho]
        have hb2 : (s'.write (r2 : Int)).buf = runeBytes r ++ runeBytes r2 := by
          simp [Scanner.write, h3, hb]
        cases operators.lookup [r, r2] with
        | none => exact ⟨rfl, hb2, h1.write _⟩
        | some t => exact ⟨rfl, hb2, h1.write _⟩
      · rw [if_neg (fun hh => ho hh.2), if_neg ho]
        exact ⟨rfl, h3.trans hb', h4⟩

/-- Where the scanner is when it has read the first rune of a token. -/
def Begun (fails : Bool) (L : Option (List Nat)) (r : Nat) (l : List Nat) (s : Scanner) : Prop :=
  (r ≠ '-'.toNat → r ≠ '/'.toNat → s.unread = false) ∧
  (fails = false → ∀ T, L = some T → ∃ d, T = d ++ r :: l ∧
    ((r ≠ '-'.toNat → r ≠ '/'.toNat →
        s.line = lineOf (d ++ [r]) ∧ s.column = columnOf (d ++ [r])) ∧
      (r = '-'.toNat ∨ r = '/'.toNat → ∃ r2 l2, l = r2 :: l2 ∧
        s.line = lineOf (d ++ [r, r2]) ∧ s.column = columnOf (d ++ [r, r2]))))

theorem agrees_skip : ∀ (n : Nat) (st : Skip) (s : Scanner) (l : List Nat), Tracks fails L s l →
    l.length < n → ∃ s', s'.buf = s.buf ∧
      (match Maho.skip st l with
      | none => skip fails n st s = (if fails then -3 else -1, s') ∧ Tracks fails L s' []
      | some (r, l') => skip fails n st s = ((r : Int), s') ∧ Tracks fails L s' l' ∧
          Begun fails L r l' s')
  | 0, _, _, _, _, hn => absurd hn (by omega)
  | n + 1, .space, s, l, h, hn => by
    unfold Scanner.skip
    cases l with
    | nil =>
      obtain ⟨s', e, h1, h2, h3, h4⟩ := h.readEnd
      refine ⟨s', h3, ?_⟩
      simp only [e, Maho.skip]
      rw [if_pos end_neg]
      exact ⟨rfl, h1⟩
    | cons r l =>
      obtain ⟨s1, e, h1, h2, h3, h4, hp⟩ := h.read
      simp only [e, natEq, Int.toNat_natCast]
      rw [if_neg (not_neg r)]
      unfold Maho.skip
      have hn' : l.length < n := by simp at hn; omega
      by_cases hs : isSpace r = true
      · rw [if_pos hs, if_pos hs]
        obtain ⟨s2, h5, h6⟩ := agrees_skip n .space s1 l h1 hn'
        exact ⟨s2, h5.trans h3, h6⟩
      rw [if_neg hs, if_neg hs]
      by_cases hm : r = '-'.toNat
      · have hsc : ¬ r = ';'.toNat := by rw [hm]; decide
        rw [if_neg hsc, if_pos hm, if_pos hm]
        cases l with
        | nil =>
          obtain ⟨s', e, h1, h2, h3', h4⟩ := h1.readEnd
          refine ⟨s', h3'.trans h3, ?_⟩
          simp only [e]
          rw [if_neg (by have := end_neg (fails := fails); omega), if_pos end_neg]
          exact ⟨rfl, h1⟩
        | cons r2 l =>
          obtain ⟨s2, e, h1, h2, h3', h4, hp2⟩ := h1.read
          simp only [e, natEq]
          by_cases hc : r2 = '-'.toNat
          · rw [if_pos hc, if_pos hc]
            obtain ⟨s3, h5, h6⟩ := agrees_skip n .line s2 l h1 (by simp at hn; omega)
            exact ⟨s3, h5.trans (h3'.trans h3), h6⟩
          · rw [if_neg hc, if_neg hc, if_neg (not_neg r2)]
            refine ⟨s2.unreadRune, h3'.trans h3, rfl, h4, fun h => absurd hm h, fun hf T eT => ?_⟩
            obtain ⟨d, e1, -, -⟩ := hp hf T eT
            obtain ⟨d2, e2, e3, e4⟩ := hp2 hf T eT
            have hd : d2 = d ++ [r] := by
              rw [e1] at e2
              have : d ++ [r] ++ (r2 :: l) = d2 ++ (r2 :: l) := by simpa using e2
              exact (List.append_cancel_right this).symm
            refine ⟨d, e1, fun h => absurd hm h, fun _ => ⟨r2, l, rfl, ?_⟩⟩
            rw [hd] at e3 e4
            simp only [List.append_assoc, List.singleton_append] at e3 e4
            exact ⟨e3, e4⟩
      rw [if_neg hm]
      by_cases hsl : r = '/'.toNat
      · have hsc : ¬ r = ';'.toNat := by rw [hsl]; decide
        rw [if_neg hsc, if_neg hm, if_pos hsl, if_pos hsl]
        cases l with
        | nil =>
          obtain ⟨s', e, h1, h2, h3', h4⟩ := h1.readEnd
          refine ⟨s', h3'.trans h3, ?_⟩
          simp only [e]
          rw [if_neg (by have := end_neg (fails := fails); omega), if_pos end_neg]
          exact ⟨rfl, h1⟩
        | cons r2 l =>
          obtain ⟨s2, e, h1, h2, h3', h4, hp2⟩ := h1.read
          simp only [e, natEq]
          by_cases hc : r2 = '*'.toNat
          · rw [if_pos hc, if_pos hc]
            obtain ⟨s3, h5, h6⟩ := agrees_skip n (.block 0) s2 l h1 (by simp at hn; omega)
            exact ⟨s3, h5.trans (h3'.trans h3), h6⟩
          · rw [if_neg hc, if_neg hc, if_neg (not_neg r2)]
            refine ⟨s2.unreadRune, h3'.trans h3, rfl, h4, fun _ h => absurd hsl h, fun hf T eT => ?_⟩
            obtain ⟨d, e1, -, -⟩ := hp hf T eT
            obtain ⟨d2, e2, e3, e4⟩ := hp2 hf T eT
            have hd : d2 = d ++ [r] := by
              rw [e1] at e2
              have : d ++ [r] ++ (r2 :: l) = d2 ++ (r2 :: l) := by simpa using e2
              exact (List.append_cancel_right this).symm
            refine ⟨d, e1, fun _ h => absurd hsl h, fun _ => ⟨r2, l, rfl, ?_⟩⟩
            rw [hd] at e3 e4
            simp only [List.append_assoc, List.singleton_append] at e3 e4
            exact ⟨e3, e4⟩
      rw [if_neg hm, if_neg hsl, if_neg hsl]
      refine ⟨s1, h3, ite_self _, h1, fun _ _ => h2, fun hf T eT => ?_⟩
      obtain ⟨d, e1, e2, e3⟩ := hp hf T eT
      exact ⟨d, e1, fun _ _ => ⟨e2, e3⟩, fun h => h.elim (fun h => absurd h hm)
        (fun h => absurd h hsl)⟩
  | n + 1, .line, s, l, h, hn => by
    unfold Scanner.skip
    cases l with
    | nil =>
      obtain ⟨s', e, h1, h2, h3, h4⟩ := h.readEnd
      refine ⟨s', h3, ?_⟩
      simp only [e, Maho.skip]
      rw [if_pos end_neg]
      exact ⟨rfl, h1⟩
    | cons r l =>
      obtain ⟨s1, e, h1, h2, h3, h4, hp⟩ := h.read
      simp only [e, natEq]
      rw [if_neg (not_neg r)]
      unfold Maho.skip
      have hn' : l.length < n := by simp at hn; omega
      by_cases hs : r = '\n'.toNat
      · rw [if_pos hs, if_pos hs]
        obtain ⟨s2, h5, h6⟩ := agrees_skip n .space s1 l h1 hn'
        exact ⟨s2, h5.trans h3, h6⟩
      · rw [if_neg hs, if_neg hs]
        obtain ⟨s2, h5, h6⟩ := agrees_skip n .line s1 l h1 hn'
        exact ⟨s2, h5.trans h3, h6⟩
  | n + 1, .block p, s, l, h, hn => by
    unfold Scanner.skip
    cases l with
    | nil =>
      obtain ⟨s', e, h1, h2, h3, h4⟩ := h.readEnd
      refine ⟨s', h3, ?_⟩
      simp only [e, Maho.skip]
      rw [if_pos end_neg]
      exact ⟨rfl, h1⟩
    | cons r l =>
      obtain ⟨s1, e, h1, h2, h3, h4, hp⟩ := h.read
      simp only [e, natEq, Int.toNat_natCast]
      rw [if_neg (not_neg r)]
      unfold Maho.skip
      have hn' : l.length < n := by simp at hn; omega
      by_cases hs : p = '*'.toNat ∧ r = '/'.toNat
      · rw [if_pos hs, if_pos hs]
        obtain ⟨s2, h5, h6⟩ := agrees_skip n .space s1 l h1 hn'
        exact ⟨s2, h5.trans h3, h6⟩
      · rw [if_neg hs, if_neg hs]
        obtain ⟨s2, h5, h6⟩ := agrees_skip n (.block r) s1 l h1 hn'
        exact ⟨s2, h5.trans h3, h6⟩

/-- A token that is neither a string nor the end of a statement or of the input. -/
def Plain : Token → Bool
  | .string _ => false
  | .endOfStatement => false
  | .eof => false
  | _ => true

theorem plain_identToken (env : ScanEnv) (b : Bytes) : Plain (env.identToken b) = true := by
  unfold ScanEnv.identToken; split <;> rfl

theorem plain_numberToken (env : ScanEnv) (n d : Bool) (b : Bytes) :
    Plain (env.numberToken n d b) = true := by
  unfold ScanEnv.numberToken; split <;> split <;> rfl

theorem plain_parameterToken (b : Bytes) : Plain (parameterToken b) = true := by
  unfold parameterToken; split
  · rfl
  · split <;> rfl

theorem plain_identifier (env : ScanEnv) (l : List Nat) : ∀ b : Bytes,
    Plain (Maho.scanIdentifier env fails b l).token = true := by
  induction l with
  | nil => intro b; unfold Maho.scanIdentifier; split <;> first | exact rfl | exact plain_identToken _ _
  | cons r l ih => intro b; unfold Maho.scanIdentifier; split <;> first | exact ih _ | exact plain_identToken _ _

theorem plain_number (env : ScanEnv) (n : Bool) (l : List Nat) : ∀ (d : Bool) (b : Bytes),
    Plain (Maho.scanNumber env fails n d b l).token = true := by
  induction l with
  | nil => intro d b; unfold Maho.scanNumber; split <;> first | exact rfl | exact plain_numberToken _ _ _ _
  | cons r l ih =>
    intro d b; unfold Maho.scanNumber; split
    · exact ih _ _
    · split <;> first | exact ih _ _ | exact plain_numberToken _ _ _ _

theorem plain_parameter (env : ScanEnv) (l : List Nat) : ∀ b : Bytes,
    Plain (Maho.scanParameter env fails b l).token = true := by
  induction l with
  | nil => intro b; unfold Maho.scanParameter; split <;> first | exact rfl | exact plain_parameterToken _
  | cons r l ih => intro b; unfold Maho.scanParameter; split <;> first | exact ih _ | exact plain_parameterToken _

theorem plain_quotedIdentifier (env : ScanEnv) (d : Nat) (l : List Nat) : ∀ b : Bytes,
    Plain (Maho.scanQuotedIdentifier env d b l).token = true := by
  induction l with
  | nil => intro b; rfl
  | cons r l ih => intro b; unfold Maho.scanQuotedIdentifier; split <;> first | exact rfl | exact ih _

theorem plain_hexBytes (l : List Nat) (b : Bytes) :
    Plain (Maho.scanHexBytes b l).token = true := by
  fun_induction Maho.scanHexBytes b l <;> first | rfl | assumption

theorem plain_bytes (esc : Bool) (l : List Nat) :
    Plain (Maho.scanBytes fails esc l).token = true := by
  unfold Maho.scanBytes; split <;> rfl

theorem plain_operator (r : Nat) (l : List Nat) :
    Plain (Maho.scanOperator fails r l).token = true := by
  have ho : ∀ (k : List Nat) (t : Token), operators.lookup k = some t → Plain t = true := by
    intro k t h
    have hm : ∀ m : List (List Nat × Token), m.lookup k = some t → ∃ p ∈ m, p.2 = t := by
      intro m
      induction m with
      | nil => intro h; cases h
      | cons p m ih =>
        intro h
        obtain ⟨a, b⟩ := p
        rw [List.lookup_cons] at h
        split at h
        · exact ⟨(a, b), by simp, by simpa using h⟩
        · obtain ⟨q, h1, h2⟩ := ih h
          exact ⟨q, by simp [h1], h2⟩
    obtain ⟨p, h1, h2⟩ := hm _ h
    have : ∀ p ∈ operators, Plain p.2 = true := by decide
    rw [← h2]
    exact this p h1
  unfold Maho.scanOperator
  split
  · rfl
  · split
    · rfl
    · split
      · split
        · next h => exact ho _ _ h
        · rfl
      · rfl

/-- `Agrees`, with what is left unread. -/
def Agrees2 (fails : Bool) (L : Option (List Nat)) (o : Token × Scanner) (c : Scanned) : Prop :=
  Agrees fails L o c ∧ (Plain o.1 = true ∨ (∃ b, o.1 = .string b) ∧ o.2.unread = true)

theorem Agrees.plain {o : Token × Scanner} {c : Scanned} (h : Agrees fails L o c)
    (hc : Plain c.token = true) : Agrees2 fails L o c := ⟨h, .inl (by rw [h.1]; exact hc)⟩

theorem agrees2_string (esc : Bool) {s : Scanner} {l : List Nat} (h : Tracks fails L s l)
    (hb : s.buf = []) : Agrees2 fails L (s.scanString fails esc) (Maho.scanString fails esc l) := by
  obtain ⟨h1, h2⟩ := agrees_string esc h hb
  refine ⟨h1, ?_⟩
  cases hu : (s.scanString fails esc).2.unread with
  | false =>
    obtain ⟨b, e⟩ := h2 hu
    rw [e]
    exact .inl rfl
  | true =>
    unfold Scanner.scanString
    split
    · exact .inl rfl
    · next e =>
      refine .inr ⟨⟨_, rfl⟩, ?_⟩
      unfold Scanner.scanString at hu
      rw [e] at hu

/-- What an identifier, or a constant, that starts with a letter scans to. -/
theorem agrees2_letter (env : ScanEnv) (r : Nat) {s : Scanner} {l : List Nat}
    (h : Tracks fails L s l) (hb : s.buf = []) (f : Scanner → Token × Scanner)
    (g : List Nat → Scanned)
    (hfg : ∀ (s' : Scanner) (l' : List Nat), Tracks fails L s' l' → s'.buf = [] →
      Agrees2 fails L (f s') (g l')) :
    Agrees2 fails L
      (match s.readRune fails with
      | (r2, s) => if r2 = '\''.toNat then f s
        else scanIdentifier env fails s.unreadRune.fuel r s.unreadRune)
      (match reread fails l with
      | [] => Maho.scanIdentifier env fails (runeBytes r) []
      | r2 :: rest2 =>
        if r2 = '\''.toNat then g rest2
        else Maho.scanIdentifier env fails (runeBytes r) (r2 :: rest2)) := by
  cases l with
  | nil =>
    obtain ⟨s', e, h1, h2, h3, h4⟩ := h.readEnd
    simp only [e]
    rw [if_neg (by have := end_neg (fails := fails); omega)]
    have ha := agrees_identifier env s'.unreadRune.fuel r s'.unreadRune _ h4 h4.fuel
    have hb' : s'.unreadRune.buf = [] := h3.trans hb
    rw [hb', List.nil_append] at ha
    cases hf : fails with
    | true =>
      subst hf
      exact ha.plain (plain_identifier _ _ _)
    | false =>
      subst hf
      exact ha.plain (plain_identifier _ _ _)
  | cons r2 l =>
    obtain ⟨s', e, h1, h2, h3, h4, -⟩ := h.read
    simp only [e, natEq, reread]
    split
    · exact hfg s' l h1 (h3.trans hb)
    · have ha := agrees_identifier env s'.unreadRune.fuel r s'.unreadRune _ h4 h4.fuel
      have hb' : s'.unreadRune.buf = [] := h3.trans hb
      rw [hb', List.nil_append] at ha
      exact ha.plain (plain_identifier _ _ _)

/-- What follows a sign. -/
theorem agrees2_sign (env : ScanEnv) (r : Nat) (neg : Bool) {s : Scanner} {l : List Nat}
    (hb : s.buf = []) : Tracks fails L s l →
    Agrees2 fails L
      (match s.readRune fails with
      | (r2, s) => if isDigit env r2 then scanNumber env fails neg s.fuel false r2 s
        else (.rune r, s.unreadRune))
      (match l with
      | [] => ⟨.rune r, [], reread fails []⟩
      | r2 :: rest2 =>
        if env.digit r2 then Maho.scanNumber env fails neg false (runeBytes r2) rest2
        else ⟨.rune r, [], r2 :: rest2⟩) := by
  intro h
  cases l with
  | nil =>
    obtain ⟨s', e, h1, h2, h3, h4⟩ := h.readEnd
    simp only [e]
    rw [isDigit_end, if_neg Bool.false_ne_true]
    exact ⟨⟨rfl, h3.trans hb, h4⟩, .inl rfl⟩
  | cons r2 l =>
    obtain ⟨s', e, h1, h2, h3, h4, -⟩ := h.read
    simp only [e, isDigit_nat]
    split
    · have ha := agrees_number env neg s'.fuel false r2 s' _ h1 h1.fuel
      rw [h3.trans hb, List.nil_append] at ha
      exact ha.plain (plain_number _ _ _ _ _)
    · exact ⟨⟨rfl, h3.trans hb, h4⟩, .inl rfl⟩

/-- The part of `scan` on lists after white space and comments. -/
def listFrom (env : ScanEnv) (fails : Bool) (r : Nat) (rest : List Nat) : Scanned :=
  if r = 'e'.toNat ∨ r = 'E'.toNat then
    match reread fails rest with
    | [] => Maho.scanIdentifier env fails (runeBytes r) []
    | r2 :: rest2 =>
      if r2 = '\''.toNat then Maho.scanString fails true rest2
      else Maho.scanIdentifier env fails (runeBytes r) (r2 :: rest2)
  else if r = 'b'.toNat then
    match reread fails rest with
    | [] => Maho.scanIdentifier env fails (runeBytes r) []
    | r2 :: rest2 =>
      if r2 = '\''.toNat then Maho.scanBytes fails true rest2
      else Maho.scanIdentifier env fails (runeBytes r) (r2 :: rest2)
  else if r = 'x'.toNat ∨ r = 'X'.toNat then
    match reread fails rest with
    | [] => Maho.scanIdentifier env fails (runeBytes r) []
    | r2 :: rest2 =>
      if r2 = '\''.toNat then Maho.scanHexBytes [] rest2
      else Maho.scanIdentifier env fails (runeBytes r) (r2 :: rest2)
  else if env.letter r ∨ r = '_'.toNat then Maho.scanIdentifier env fails (runeBytes r) rest
  else if env.digit r then Maho.scanNumber env fails false false (runeBytes r) rest
  else if r = '+'.toNat then
    match rest with
    | [] => ⟨.rune r, [], reread fails []⟩
    | r2 :: rest2 =>
      if env.digit r2 then Maho.scanNumber env fails false false (runeBytes r2) rest2
      else ⟨.rune r, [], r2 :: rest2⟩
  else if r = '-'.toNat then
    match rest with
    | [] => ⟨.rune r, [], reread fails []⟩
    | r2 :: rest2 =>
      if env.digit r2 then Maho.scanNumber env fails true false (runeBytes r2) rest2
      else ⟨.rune r, [], r2 :: rest2⟩
  else if r = '"'.toNat ∨ r = '`'.toNat then Maho.scanQuotedIdentifier env r [] rest
  else if r = '['.toNat then Maho.scanQuotedIdentifier env ']'.toNat [] rest
  else if r = '\''.toNat then Maho.scanString fails false rest
  else if isOpRune r then Maho.scanOperator fails r rest
  else if r = '.'.toNat ∨ r = ','.toNat ∨ r = '('.toNat ∨ r = ')'.toNat ∨ r = '@'.toNat then
    ⟨.rune r, [], rest⟩
  else if r = '$'.toNat then
    match rest with
    | [] => ⟨.error false, [], []⟩
    | r2 :: rest2 =>
      if env.digit r2 then Maho.scanParameter env fails (runeBytes r2) rest2
      else ⟨.error false, [], rest2⟩
  else ⟨.error false, [], rest⟩

theorem scan_eq_from (env : ScanEnv) (l : List Nat) : Maho.scan env fails l =
    match Maho.skip .space l with
    | none => ⟨if fails then .error false else .eof, [], []⟩
    | some (r, rest) => if r = ';'.toNat then ⟨.endOfStatement, [], rest⟩
      else listFrom env fails r rest := rfl

theorem agrees2_from (env : ScanEnv) (r : Nat) {s : Scanner} {l : List Nat}
    (h : Tracks fails L s l) (hb : s.buf = []) :
    Agrees2 fails L (scanFrom env fails r s) (listFrom env fails r l) := by
  unfold scanFrom listFrom
  by_cases h1 : r = 'e'.toNat ∨ r = 'E'.toNat
  · rw [if_pos h1, if_pos h1]
    exact agrees2_letter env r h hb _ _ fun s' l' h hb => agrees2_string true h hb
  rw [if_neg h1, if_neg h1]
  by_cases h2 : r = 'b'.toNat
  · rw [if_pos h2, if_pos h2]
    exact agrees2_letter env r h hb _ _ fun s' l' h hb =>
      (agrees_bytes true h hb).plain (plain_bytes _ _)
  rw [if_neg h2, if_neg h2]
  by_cases h3 : r = 'x'.toNat ∨ r = 'X'.toNat
  · rw [if_pos h3, if_pos h3]
    refine agrees2_letter env r h hb (fun s => scanHexBytes fails s.fuel s) _ fun s' l' h hb => ?_
    have := agrees_hexBytes s'.fuel s' l' h h.fuel
    rw [hb] at this
    exact this.plain (plain_hexBytes _ _)
  rw [if_neg h3, if_neg h3]
  by_cases h4 : env.letter r = true ∨ r = '_'.toNat
  · rw [if_pos h4, if_pos h4]
    have := agrees_identifier env s.fuel r s l h h.fuel
    rw [hb, List.nil_append] at this
    exact this.plain (plain_identifier _ _ _)
  rw [if_neg h4, if_neg h4]
  by_cases h5 : env.digit r = true
  · rw [if_pos h5, if_pos h5]
    have := agrees_number env false s.fuel false r s l h h.fuel
    rw [hb, List.nil_append] at this
    exact this.plain (plain_number _ _ _ _ _)
  rw [if_neg h5, if_neg h5]
  by_cases h6 : r = '+'.toNat
  · rw [if_pos h6, if_pos h6]
    exact agrees2_sign env r false hb h
  rw [if_neg h6, if_neg h6]
  by_cases h7 : r = '-'.toNat
  · rw [if_pos h7, if_pos h7]
    exact agrees2_sign env r true hb h
  rw [if_neg h7, if_neg h7]
  by_cases h8 : r = '"'.toNat ∨ r = '`'.toNat
  · rw [if_pos h8, if_pos h8]
    have := agrees_quotedIdentifier env r s.fuel s l h h.fuel
    rw [hb] at this
    exact this.plain (plain_quotedIdentifier _ _ _ _)
  rw [if_neg h8, if_neg h8]
  by_cases h9 : r = '['.toNat
  · rw [if_pos h9, if_pos h9]
    have := agrees_quotedIdentifier env ']'.toNat s.fuel s l h h.fuel
    rw [hb] at this
    exact this.plain (plain_quotedIdentifier _ _ _ _)
  rw [if_neg h9, if_neg h9]
  by_cases h10 : r = '\''.toNat
  · rw [if_pos h10, if_pos h10]
    exact agrees2_string false h hb
  rw [if_neg h10, if_neg h10]
  by_cases h11 : isOpRune r = true
  · rw [if_pos h11, if_pos h11]
    exact (agrees_operator r h hb).plain (plain_operator _ _)
  rw [if_neg h11, if_neg h11]
  split
  · exact ⟨⟨rfl, hb, h⟩, .inl rfl⟩
  split
  · cases l with
    | nil =>
      obtain ⟨s', e, h1, h2, h3, h4⟩ := h.readEnd
      simp only [e]
      rw [isDigit_end, if_neg Bool.false_ne_true]
      exact ⟨⟨rfl, h3.trans hb, h1⟩, .inl rfl⟩
    | cons r2 l =>
      obtain ⟨s', e, h1, h2, h3, h4, -⟩ := h.read
      simp only [e, isDigit_nat]
      split
      · have ha := agrees_parameter env s'.fuel r2 s' _ h1 h1.fuel
        rw [h3.trans hb, List.nil_append] at ha
        exact ha.plain (plain_parameter _ _ _)
      · exact ⟨⟨rfl, h3.trans hb, h1⟩, .inl rfl⟩
  · exact ⟨⟨rfl, hb, h⟩, .inl rfl⟩

theorem from_ne (env : ScanEnv) (r : Nat) (l : List Nat) :
    (listFrom env fails r l).token ≠ .endOfStatement ∧ (listFrom env fails r l).token ≠ .eof := by
  obtain ⟨⟨h, -⟩, h2⟩ := agrees2_from (fails := fails) env r (Tracks.init l) rfl
  rw [← h]
  rcases h2 with h2 | ⟨⟨b, h2⟩, -⟩
  · constructor <;> (intro e; rw [e] at h2; cases h2)
  · rw [h2]
    simp

/-- A call of `Scan`: the token, what is left, what is unread, and the position. -/
theorem agrees_scan (env : ScanEnv) (pos : Position) {s : Scanner} {l : List Nat}
    (h : Tracks fails L s l) :
    (scan env fails pos s).1 = (Maho.scan env fails l).token ∧
    (scan env fails pos s).2.2.buf = (Maho.scan env fails l).buf ∧
    Tracks fails L (scan env fails pos s).2.2 (Maho.scan env fails l).rest ∧
    ((scan env fails pos s).1 = .endOfStatement → (scan env fails pos s).2.2.unread = false) ∧
    (∀ b, (scan env fails pos s).1 = .string b → (scan env fails pos s).2.2.unread = true) ∧
    (match Maho.skip .space l with
    | none => (scan env fails pos s).2.1 = pos
    | some (r, l') => if r = ';'.toNat then (scan env fails pos s).2.1 = pos
        else ∃ s', (scan env fails pos s).2.1 = ⟨s'.line, s'.column⟩ ∧ Begun fails L r l' s') := by
  have h' := h.setBuf (b := [])
  obtain ⟨s1, hb, h1⟩ := agrees_skip ({ s with buf := [] } : Scanner).fuel .space _ l h' h'.fuel
  rw [scan_eq_from]
  unfold Scanner.scan
  dsimp only
  revert h1
  cases Maho.skip .space l with
  | none =>
    rintro ⟨e, h2⟩
    dsimp only
    rw [e]
    dsimp only
    rw [if_pos end_neg]
    refine ⟨?_, hb, h2, ?_, ?_, rfl⟩
    · cases fails <;> rfl
    · cases fails <;> (intro h; cases h)
    · intro b; cases fails <;> (intro h; cases h)
  | some p =>
    obtain ⟨r, l'⟩ := p
    rintro ⟨e, h2, h3⟩
    dsimp only
    rw [e]
    dsimp only
    rw [if_neg (not_neg r)]
    simp only [natEq, Int.toNat_natCast]
    by_cases hs : r = ';'.toNat
    · rw [if_pos hs, if_pos hs, if_pos hs]
      exact ⟨rfl, hb, h2, fun _ => h3.1 (by rw [hs]; decide) (by rw [hs]; decide),
        (fun b h => by cases h), rfl⟩
    · rw [if_neg hs, if_neg hs, if_neg hs]
      obtain ⟨⟨ha, ha2, ha3⟩, ha4⟩ := agrees2_from env r h2 hb
      refine ⟨ha, ha2, ha3, fun h => ?_, fun b h => ?_, s1, rfl, h3⟩
      · dsimp only at h
        rw [h] at ha4
        rcases ha4 with h | ⟨⟨b, h⟩, -⟩ <;> cases h
      · dsimp only at h
        rw [h] at ha4
        rcases ha4 with h | ⟨-, h⟩
        · cases h
        · exact h

theorem tracks_after (env : ScanEnv) (fails : Bool) (ps : Nat → Position) (l : List Nat) :
    ∀ k, Tracks fails l (after env fails ps (init l) k) (restAfter env fails l k)
  | 0 => Tracks.init l
  | k + 1 => (agrees_scan env (ps k) (tracks_after env fails ps l k)).2.2.1

theorem tracks_slots (env : ScanEnv) (fails : Bool) (l : List Nat) :
    ∀ k, Tracks fails l (slots env fails l k).2 (restAfter env fails l k)
  | 0 => Tracks.init l
  | k + 1 => (agrees_scan env _ (tracks_slots env fails l k)).2.2.1

theorem positionAt_eq (env : ScanEnv) (fails : Bool) (l : List Nat) (k : Nat) :
    positionAt env fails l k = (scan env fails (slots env fails l k).1.1
      (slots env fails l k).2).2.1 := rfl

theorem slots_one (env : ScanEnv) (fails : Bool) (l : List Nat) (k : Nat) :
    (slots env fails l (k + 1)).1.1 = (slots env fails l k).1.2.1 := rfl

theorem slots_two (env : ScanEnv) (fails : Bool) (l : List Nat) (k : Nat) :
    (slots env fails l (k + 1)).1.2.1 = (slots env fails l k).1.2.2 := rfl

end Scanner
end Maho
