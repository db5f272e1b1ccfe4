import Verif.Lemmas.Layout
/-
Helper lemmas for C92: the tokens of a text up to a semicolon do not depend on what follows.
-/
namespace Maho
open Maho.Spec

/-- White space and comments do not end with a semicolon. -/
theorem skipped_last {l : List Nat} (h : Skipped l) : ∀ m, l ≠ m ++ [59] := by
  have key : l.getLast? ≠ some 59 := by
    induction h with
    | nil => simp
    | space r l hr _ ih =>
      rw [List.getLast?_cons]
      cases e : l.getLast? with
      | none =>
        simp only [Option.getD_none]
        intro h
        cases h
        exact absurd hr (by decide)
      | some c => rw [e] at ih; simpa using ih
    | line body l _ _ ih =>
      rw [List.getLast?_append]
      cases e : l.getLast? with
      | none => simp
      | some c => rw [e] at ih; simpa using ih
    | block body l _ _ ih =>
      rw [List.getLast?_append]
      cases e : l.getLast? with
      | none => simp [show runes "*/" = [42, 47] by decide]
      | some c => rw [e] at ih; simpa using ih
  rintro m rfl
  exact key (by simp)

/-- More text after a semicolon does not continue a token before it. -/
theorem delimited_semicolon {env : ScanEnv} {t : Token} {p : List Nat} (a : List Nat)
    (h : Delimited env t (p ++ [59])) : Delimited env t (p ++ [59] ++ a) := by
  have hh : (p ++ [59] ++ a).head? = (p ++ [59]).head? := by cases p <;> rfl
  have hc : ¬ Continues (p ++ [59]) → ¬ Continues (p ++ [59] ++ a) := by
    intro h1 h2
    apply h1
    rcases h2 with ⟨m, e⟩ | ⟨ws, m, e, hw, hn⟩
    · left
      cases p with
      | nil => simp at e
      | cons c p =>
        simp only [List.cons_append, List.cons.injEq] at e
        exact ⟨p ++ [59], by rw [e.1]; rfl⟩
    · right
      rw [List.append_assoc, List.append_eq_append_iff] at e
      rcases e with ⟨c, e1, e2⟩ | ⟨c, e1, e2⟩
      · cases c with
        | nil => simp at e2
        | cons d c =>
          simp only [List.cons_append, List.nil_append, List.cons.injEq] at e2
          exact absurd (hw 59 (by rw [e1, ← e2.1]; simp)) (by decide)
      · cases c with
        | nil => simp at e2
        | cons d c =>
          simp only [List.cons_append, List.cons.injEq] at e2
          exact ⟨ws, c ++ [59], by rw [e1, ← e2.1]; simp, hw, hn⟩
  cases t <;> simp only [Delimited] at h ⊢ <;> first
    | exact hc h
    | (rw [hh]; first | exact h | exact ⟨fun _ => by simp, h.2⟩)

/-- The tokens of a text up to a semicolon. -/
theorem tokenize_semicolon (env : ScanEnv) (hc : ClassesApart env) (a : List Nat) :
    ∀ (us : List Token) (p : List Nat), LaidOut env (us ++ [.endOfStatement]) (p ++ [59]) →
      tokenize env (p ++ [59] ++ a) = us ++ .endOfStatement :: tokenize env a
  | [], p, h => by
    generalize hl : p ++ [59] = l at h
    cases h with
    | cons _ _ blank w rest hb ht hs hd hr =>
      cases hr with
      | nil _ hr =>
        have hw : w = [59] := hs
        subst hw
        have e : rest = [] := by
          rcases List.eq_nil_or_concat rest with e | ⟨m, c, e⟩
          · exact e
          · exfalso
            rw [List.concat_eq_append] at e
            subst e
            rw [← List.append_assoc] at hl
            have := (List.append_inj' hl rfl).2
            simp only [List.cons.injEq, and_true] at this
            exact skipped_last hr m (by rw [this])
        subst e
        rw [List.append_nil]
        exact tokenize_spelled env hc hb ht hs trivial
  | t :: us, p, h => by
    generalize hl : p ++ [59] = l at h
    cases h with
    | cons _ _ blank w rest hb ht hs hd hr =>
      have e : ∃ q, rest = q ++ [59] := by
        rcases List.eq_nil_or_concat rest with e | ⟨m, c, e⟩
        · exfalso
          subst e
          have := tokenize_laidOut env hc hr
          rw [show tokenize env [] = [] from tokenize_skipped env .nil] at this
          cases us <;> simp at this
        · rw [List.concat_eq_append] at e
          subst e
          rw [← List.append_assoc] at hl
          have := (List.append_inj' hl rfl).2
          exact ⟨m, by rw [this]⟩
      obtain ⟨q, rfl⟩ := e
      have ih := tokenize_semicolon env hc a us q hr
      rw [List.append_assoc, tokenize_spelled env hc hb ht hs (delimited_semicolon a hd), ih]
      rfl

end Maho
