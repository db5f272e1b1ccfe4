import Verif.Lemmas.Ahead
import Verif.Lemmas.AheadText
import Verif.Lemmas.ReadParse
import Verif.Props.Layout
import Verif.Props.RingParse
/-
C92: what `Parse` returns does not depend on what is after the `;`.
-/
namespace Maho
open Maho.Spec

/-- What a call of `Parse` returns is decided by the tokens up to the `;` that ends the statement,
whatever is after it: a statement, an error or a panic. After a statement, and after an error at the
`;`, exactly what is after the `;` is left for the next call. After another error, the rest of the
statement is left, its `;`, and what is after it. After an error, the statement begins after the next
`;`. What is missing: the statement without tokens (`C92_empty`). -/
theorem C92_upto_partial (env : ParseEnv) (failed : Bool) (skipped us x y : List Token)
    (hs : if failed then ∃ m, Token.endOfStatement ∉ m ∧ skipped = m ++ [.endOfStatement]
      else skipped = [])
    (hu : us ≠ []) (h0 : Token.endOfStatement ∉ us) (he : Token.eof ∉ skipped ++ us ++ x ++ y) :
    let a := parse env failed (skipped ++ us ++ .endOfStatement :: x)
    let b := parse env failed (skipped ++ us ++ .endOfStatement :: y)
    a.1 = b.1 ∧ (a.1 ≠ .panic → a.2.1 = b.2.1 ∧
      (((∃ s, a.1 = .stmt s) ∨ a.1 = .error) ∧ a.2.1 = false ∧ a.2.2 = x ∧ b.2.2 = y ∨
        a.1 = .error ∧ ∃ u, u <:+ skipped ++ us ∧ a.2.2 = u ++ .endOfStatement :: x ∧
          b.2.2 = u ++ .endOfStatement :: y)) := by
  intro a b
  suffices key : a.1 = b.1 ∧ (a.1 ≠ .panic → a.2.1 = b.2.1 ∧
      (((∃ s, a.1 = .stmt s) ∨ a.1 = .error) ∧ a.2.1 = false ∧ a.2.2 = x ∧ b.2.2 = y ∨
        a.1 = .error ∧ ∃ u, a.2.2 = u ++ .endOfStatement :: x ∧
          b.2.2 = u ++ .endOfStatement :: y)) by
    refine ⟨key.1, fun hp => ⟨(key.2 hp).1, (key.2 hp).2.imp_right ?_⟩⟩
    rintro ⟨h1, u, h2, h3⟩
    refine ⟨h1, u, ?_, h2, h3⟩
    have hsuf : a.2.2 <:+ skipped ++ us ++ .endOfStatement :: x := by
      have hez : Token.eof ∉ skipped ++ us ++ .endOfStatement :: x := by
        intro h
        apply he
        simp at h ⊢
        rcases h with h | h | h <;> simp [h]
      rcases C64_panics_only env failed _ hez with ⟨h, _⟩ | ⟨_, h, _⟩ | ⟨_, h⟩
      · exact absurd h hp
      · exact h
      · exact h
    rw [h2] at hsuf
    obtain ⟨w, hw⟩ := hsuf
    rw [← List.append_assoc] at hw
    exact ⟨w, List.append_cancel_right hw⟩
  have call : ∀ {a b}, UptoCall x y a b → a.1 = b.1 ∧ (a.1 ≠ .panic → a.2.1 = b.2.1 ∧
      (((∃ s, a.1 = .stmt s) ∨ a.1 = .error) ∧ a.2.1 = false ∧ a.2.2 = x ∧ b.2.2 = y ∨
        a.1 = .error ∧ ∃ u, a.2.2 = u ++ .endOfStatement :: x ∧
          b.2.2 = u ++ .endOfStatement :: y)) := by
    rintro a b ⟨h1, h2⟩
    refine ⟨h1, fun hp => ?_⟩
    rcases h2 with h2 | ⟨h2, h3, h4 | ⟨h4, _, u, _, h5⟩⟩
    · exact absurd h2 hp
    · exact ⟨h2, .inl ⟨h3, h4⟩⟩
    · exact ⟨h2, .inr ⟨h4, u, h5⟩⟩
  have hns : ∀ z, z = x ∨ z = y →
      (parse env failed (skipped ++ us ++ .endOfStatement :: z)).1 ≠ .stuck := by
    intro z hz hst
    have hez : Token.eof ∉ skipped ++ us ++ .endOfStatement :: z := by
      intro h
      apply he
      rcases hz with rfl | rfl <;> simp at h ⊢ <;> rcases h with h | h | h <;> simp [h]
    rcases C64_panics_only env failed _ hez with ⟨h, _⟩ | ⟨⟨s, h⟩ | h, _⟩ | ⟨h, _⟩ <;>
      rw [hst] at h <;> cases h
  have hx := hns x (.inl rfl)
  have hy := hns y (.inr rfl)
  have he1 : Token.eof ∉ skipped := fun h => he (by simp [h])
  have he2 : Token.eof ∉ us := fun h => he (by simp [h])
  have hp : ∀ t l, t ≠ .eof → t ≠ .error false → parse env failed (t :: l) =
      if failed then
        match skipStatement (t :: l) with
        | (some true, rest) => (.error, true, rest)
        | (some false, rest) => (.eof, true, rest)
        | (none, rest) => parseRecover env rest
      else parseRecover env (t :: l) := by
    intro t l h1 h2
    unfold parse
    split
    · rename_i h; cases h
    · rename_i h; cases h; exact absurd rfl h1
    · rename_i h; cases h; exact absurd rfl h2
    · rfl
  cases failed with
  | false =>
    obtain rfl : skipped = [] := by simpa using hs
    obtain ⟨t, us, rfl⟩ := List.exists_cons_of_ne_nil hu
    by_cases ht : t = .error false
    · subst ht
      exact ⟨rfl, fun _ => ⟨rfl, .inr ⟨rfl, us, rfl, rfl⟩⟩⟩
    · have e : ∀ z, parse env false ([] ++ (t :: us) ++ .endOfStatement :: z) =
          parseRecover env ((t :: us) ++ .endOfStatement :: z) :=
        fun z => hp t _ (fun e => he2 (by simp [e])) ht
      simp only [a, b, e] at hx hy ⊢
      exact call (upto_recover env ⟨h0, he2⟩ hu hx hy)
  | true =>
    obtain ⟨m, hm, rfl⟩ : ∃ m, Token.endOfStatement ∉ m ∧ skipped = m ++ [.endOfStatement] := by
      simpa using hs
    obtain ⟨t, l, hl⟩ : ∃ t l, m ++ [Token.endOfStatement] = t :: l :=
      List.exists_cons_of_ne_nil (by simp)
    by_cases ht : t = .error false
    · subst ht
      have e : ∀ z, parse env true (m ++ [.endOfStatement] ++ us ++ .endOfStatement :: z) =
          (.error, true, l ++ us ++ .endOfStatement :: z) := by
        intro z
        rw [hl]
        rfl
      simp only [a, b, e]
      exact ⟨trivial, fun _ => ⟨trivial, .inr ⟨trivial, l ++ us, rfl, rfl⟩⟩⟩
    · have e : ∀ z, parse env true (m ++ [.endOfStatement] ++ us ++ .endOfStatement :: z) =
          match skipStatement (m ++ .endOfStatement :: (us ++ .endOfStatement :: z)) with
          | (some true, rest) => (.error, true, rest)
          | (some false, rest) => (.eof, true, rest)
          | (none, rest) => parseRecover env rest := by
        intro z
        have e1 : m ++ .endOfStatement :: (us ++ .endOfStatement :: z) =
            t :: (l ++ us ++ .endOfStatement :: z) := by
          rw [← List.singleton_append, ← List.append_assoc, hl]
          simp
        rw [e1, hl]
        exact hp t _ (fun h => he1 (by rw [hl, h]; simp)) ht
      rcases skipStatement_append m us (fun h => he1 (by simp [h])) hm with ⟨v, hv⟩ | hv
      · simp only [a, b, e, hv]
        exact ⟨trivial, fun _ => ⟨trivial, .inr ⟨trivial, v, by simp, by simp⟩⟩⟩
      · simp only [a, b, e, hv] at hx hy ⊢
        exact call (upto_recover env ⟨h0, he2⟩ hu hx hy)

-- A statement, an error at the `;`, and an error before it, each with nothing and with a string
-- without its end after the `;`.
example : (parseText "BEGIN;").1.isStmt = true ∧ (parseText "BEGIN; 'a").1.isStmt = true ∧
    (parseText "SELECT;").1.isError = true ∧ (parseText "SELECT; 'a").1.isError = true ∧
    (parseText "SELECT; 'a").2.1 = false ∧
    (parseText "SELECT 1 1 1; 'a").1.isError = true ∧ (parseText "SELECT 1 1 1; 'a").2.1 = true ∧
    (parseText "SELECT 1 1 1; 'a").2.2.length = 3 := by
  decide +kernel

/-- The first call of `Parse`, with the ring of three tokens, returns the same for two texts with
the same tokens up to a `;`. Missing: the `;` is not the first token (`C92_empty`). -/
theorem C92_texts_partial (env : ParseEnv) (l m : List Nat) (us x y : List Token) (hu : us ≠ [])
    (h0 : Token.endOfStatement ∉ us)
    (hl : tokenize env.toScanEnv l = us ++ .endOfStatement :: x)
    (hm : tokenize env.toScanEnv m = us ++ .endOfStatement :: y) :
    RP.parsedAt env (tokenize env.toScanEnv l) 0 = RP.parsedAt env (tokenize env.toScanEnv m) 0 := by
  rw [C64_ring env l 0 (fun _ h => absurd h (by omega)),
    C64_ring env m 0 (fun _ h => absurd h (by omega))]
  have h1 := eof_not_mem_tokenize env.toScanEnv l
  have h2 := eof_not_mem_tokenize env.toScanEnv m
  rw [hl] at h1 ⊢
  rw [hm] at h2 ⊢
  refine (C92_upto_partial env false [] us x y rfl hu h0 ?_).1
  intro h
  simp at h h1 h2
  rcases h with h | h | h
  · exact h1.1 h
  · exact h1.2 h
  · exact h2.2 h

example : tokenize asciiParse.toScanEnv (runes "BEGIN;") =
      [.reserved Kw.BEGIN] ++ .endOfStatement :: [] ∧
    tokenize asciiParse.toScanEnv (runes "BEGIN; a") =
      [.reserved Kw.BEGIN] ++ .endOfStatement :: tokenize asciiParse.toScanEnv (runes " a") := by
  decide +kernel

/-- When a text up to a `;` has been entered, what the first call of `Parse` returns is decided,
whatever text is entered after it, also if it is an error in every way. The text up to the `;` is
laid out as in C91. Missing: what `C92_texts_partial` and C91 miss. -/
theorem C92_entered_partial (env : ParseEnv) (hc : ClassesApart env.toScanEnv) (us : List Token)
    (p : List Nat) (hu : us ≠ []) (h0 : Token.endOfStatement ∉ us)
    (h : LaidOut env.toScanEnv (us ++ [.endOfStatement]) (p ++ runes ";")) (a b : List Nat) :
    RP.parsedAt env (tokenize env.toScanEnv (p ++ runes ";" ++ a)) 0 =
      RP.parsedAt env (tokenize env.toScanEnv (p ++ runes ";" ++ b)) 0 :=
  C92_texts_partial env _ _ us _ _ hu h0 (tokenize_semicolon env.toScanEnv hc a us p h)
    (tokenize_semicolon env.toScanEnv hc b us p h)

-- `(;`
example : LaidOut asciiParse.toScanEnv ([.rune 40] ++ [.endOfStatement]) ([40] ++ runes ";") := by
  refine .cons _ _ [] [40] (runes ";") .nil ⟨by simp, by simp⟩ ⟨by decide, by decide⟩ ?_
    (.cons _ _ [] (runes ";") [] .nil ⟨by simp, by simp⟩ rfl trivial (.nil [] .nil))
  exact ⟨fun h => absurd h (by decide), fun c _ => ⟨fun h => absurd h (by decide),
    fun h => absurd h (by decide), fun h => absurd h (by decide)⟩⟩

/-- Once a statement has been returned, all that is after its `;` is left, and nothing else. -/
theorem C92_left (env : ParseEnv) (us x : List Token) (o : Option Stmt) (f : Bool)
    (rest : List Token) (hu : us ≠ []) (h0 : Token.endOfStatement ∉ us) (he : Token.eof ∉ us ++ x)
    (h : parse env false (us ++ .endOfStatement :: x) = (.stmt o, f, rest)) :
    f = false ∧ rest = x := by
  have hd := C92_upto_partial env false [] us x [] rfl hu h0 (by simpa using he)
  simp only [List.nil_append] at hd
  obtain ⟨_, hd⟩ := hd
  rw [h] at hd
  rcases (hd (by simp)).2 with ⟨_, e1, e2, _⟩ | ⟨e, _⟩
  · exact ⟨e1, e2⟩
  · cases e

example : (parseText "BEGIN; a;").1.isStmt = true ∧ (parseText "BEGIN; a;").2.2.length = 2 := by
  decide +kernel

/-- The statement without tokens: the token after its `;` is read too. At the end of the input and
before another `;` the nil statement is returned, and before any other token an error. -/
theorem C92_empty (env : ParseEnv) :
    (parse env false [.endOfStatement]).1 = .stmt none ∧
    (∀ x, parse env false (.endOfStatement :: .endOfStatement :: x) = (.stmt none, false, x)) ∧
    ∀ t x, t ≠ .endOfStatement → t ≠ .eof → t ≠ .error true →
      (parse env false (.endOfStatement :: t :: x)).1 = .error := by
  refine ⟨rfl, fun _ => rfl, fun t x h1 h2 h3 => ?_⟩
  cases t <;> first
    | rfl
    | exact absurd rfl h1
    | exact absurd rfl h2
    | skip
  rename_i b
  cases b
  · rfl
  · exact absurd rfl h3

example : (parseText ";").1.isStmt = true ∧ (parseText "; BEGIN").1.isError = true := by
  decide +kernel

end Maho
