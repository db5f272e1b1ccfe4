import Verif.Lemmas.Console
/-
The console on two texts with the same tokens.
-/
namespace Maho
open Spec

theorem console_same {env : ParseEnv} {L M : List Nat} {l : List Token}
    (hn : ∀ m, m <:+ l → ¬ NullSetting m) (hy : Token.reserved (-16) ∉ l) :
    ∀ (n : Nat) (q : Parser) (s : Place) (k : Nat) (q2 : Parser) (s2 : Place), Follows env L q s →
      Follows env M q2 s2 → s2.failed = s.failed → s2.tokens env = s.tokens env →
      s.tokens env <:+ l → Clean (s.tokens env) → (s.tokens env).length < n →
      (s.tokens env).length < k → q.console env n = q2.console env k := by
  intro n
  induction n with
  | zero => intro q s k q2 s2 _ _ _ _ _ _ h; omega
  | succ n ih =>
    intro q s k q2 s2 hf hf2 h1 h2 hl hc hlt hlt2
    obtain ⟨k, rfl⟩ : ∃ j, k = j + 1 := ⟨k - 1, by omega⟩
    have hst := (statement_suffix env s).trans hl
    have hns : ¬ NullSetting (s.statement env) := hn _ hst
    have hcp : ¬ s.isCopy env := by
      intro h
      apply hy
      unfold Place.isCopy at h
      exact hst.subset (List.mem_of_mem_head? h)
    have hcp2 : ¬ s2.isCopy env := by
      unfold Place.isCopy Place.statement at hcp ⊢
      rwa [h1, h2]
    have h := parse_ok (env := env) (failed := s.failed) hc hns
    have hret : (Maho.parse env s.failed (s.tokens env)).1.returns := by
      rcases h with ⟨⟨t, h⟩ | h, -⟩ | ⟨h, -⟩ <;> rw [h] <;> trivial
    have hsuf : (Maho.parse env s.failed (s.tokens env)).2.2 <:+ s.tokens env := by
      rcases h with ⟨-, h, -⟩ | ⟨-, h⟩ <;> exact h
    obtain ⟨q', s', e1, e2, e3, e4⟩ := hf.plain hret hsuf hcp
    obtain ⟨p', t', g1, g2, g3, g4⟩ := hf2.plain (by rw [h1, h2]; exact hret)
      (by rw [h1, h2]; exact hsuf) hcp2
    rw [h1, h2] at g1 g3 g4
    unfold Parser.console
    rw [e1, g1]
    generalize Maho.parse env s.failed (s.tokens env) = x at h e3 e4 g3 g4
    obtain ⟨p, f, rest⟩ := x
    simp only at h e3 e4 g3 g4
    subst e4
    rcases h with ⟨⟨t, rfl⟩ | rfl, h2, h3⟩ | ⟨rfl, h2⟩
    · have := ih q' s' k p' t' e2 g2 (g3.trans e3.symm) g4 (h2.trans hl) (hc.suffix h2) (by omega)
        (by omega)
      simp only [this]
    · have := ih q' s' k p' t' e2 g2 (g3.trans e3.symm) g4 (h2.trans hl) (hc.suffix h2) (by omega)
        (by omega)
      simp only [this]
    · rfl

end Maho
