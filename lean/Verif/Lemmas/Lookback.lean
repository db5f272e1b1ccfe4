import Verif.Spec.Parse
/-
Helper lemmas for C64: the ring of tokens.
-/
namespace Maho
open Maho.Spec

/-- The ring stands before token `pos`, and holds the last three tokens. -/
structure Holds (stream : Nat → Token) (r : Ring) (pos : Nat) : Prop where
  place : pos + r.unscanned = r.scanned
  behind : r.unscanned ≤ 3
  current : r.current = pos % 3
  slots : ∀ i, i < r.scanned → r.scanned ≤ i + 3 → r.lookBack ((i + 1) % 3) = stream i

theorem Holds.new (stream : Nat → Token) : Holds stream Ring.new 0 :=
  ⟨rfl, by decide, rfl, fun i h => absurd h (by simp [Ring.new])⟩

theorem Holds.scan {stream : Nat → Token} {r : Ring} {pos : Nat} (h : Holds stream r pos) :
    (r.scan stream).1 = stream pos ∧ Holds stream (r.scan stream).2 (pos + 1) ∧
      (r.scan stream).2.scanned = max r.scanned (pos + 1) := by
  obtain ⟨h1, h2, h3, h4⟩ := h
  unfold Ring.scan
  have hc : (r.current + 1) % 3 = (pos + 1) % 3 := by omega
  simp only [hc]
  split
  · refine ⟨h4 pos (by omega) (by omega), ⟨?_, ?_, rfl, h4⟩, ?_⟩ <;> simp only <;> omega
  · have hp : r.scanned = pos := by omega
    refine ⟨by rw [hp], ⟨?_, by simp, rfl, ?_⟩, ?_⟩
    · simp [hp]
    · intro i hi1 hi2
      simp only at hi1 hi2 ⊢
      by_cases e : i = pos
      · subst e
        simp [hp]
      · rw [if_neg (by omega)]
        exact h4 i (by omega) (by omega)
    · simp only
      omega

theorem Holds.unscan {stream : Nat → Token} {r : Ring} {pos : Nat} (h : Holds stream r pos)
    (hp : 0 < pos) (hn : r.scanned < pos + 3) :
    ∃ r2, r.unscan = .ok r2 ∧ Holds stream r2 (pos - 1) ∧ r2.scanned = r.scanned := by
  obtain ⟨h1, h2, h3, h4⟩ := h
  unfold Ring.unscan
  rw [if_neg (by omega)]
  refine ⟨_, rfl, ⟨?_, ?_, ?_, h4⟩, rfl⟩ <;> simp only
  · omega
  · omega
  · split <;> omega

theorem ring_run {stream : Nat → Token} : ∀ (calls : List RingCall) (r : Ring) (pos : Nat),
    Holds stream r pos → Near pos r.scanned calls →
      r.run stream calls = .ok (reads stream pos calls)
  | [], _, _, _, _ => rfl
  | .scan :: calls, r, pos, h, hn => by
    obtain ⟨e1, e2, e3⟩ := h.scan
    have := ring_run calls _ _ e2 (by rw [e3]; exact hn)
    simp only [Ring.run, reads, this, e1]
  | .unscan :: calls, r, pos, h, hn => by
    obtain ⟨hp, hf, hn⟩ := hn
    obtain ⟨r2, e1, e2, e3⟩ := h.unscan hp hf
    have := ring_run calls _ _ e2 (by rw [e3]; exact hn)
    simp only [Ring.run, reads, e1, this]

end Maho
