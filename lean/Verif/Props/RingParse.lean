import Verif.Lemmas.RingStmt
import Verif.Props.Parse
/-
C64 for the parser with its ring of three tokens.
-/
namespace Maho
open Maho.Spec

/-- What call number `k` of `Parse` returns for a text, with the ring. -/
def ringText (s : String) (k : Nat) : Parsed :=
  RP.parsedAt asciiParse (tokenize asciiParse.toScanEnv (runes s)) k

/-- With the ring of three tokens the calls of `Parse` return what they return when any number of
tokens can be put back, for every input, up to the first call that panics. So `unscan` never
panics. -/
theorem C64_ring (env : ParseEnv) (l : List Nat) (k : Nat)
    (h : ∀ j < k, parsedAt env (tokenize env.toScanEnv l) j ≠ .panic ∧
      parsedAt env (tokenize env.toScanEnv l) j ≠ .stuck) :
    RP.parsedAt env (tokenize env.toScanEnv l) k = parsedAt env (tokenize env.toScanEnv l) k := by
  refine same_parsedAt (fun hm => (tokenize_mem hm).1 rfl) env k fun j hj => ?_
  obtain ⟨h1, h2⟩ := h j hj
  revert h1 h2
  cases parsedAt env (tokenize env.toScanEnv l) j <;> intro h1 h2 <;>
    first | trivial | exact (h1 rfl).elim | exact (h2 rfl).elim

-- Two tokens are put back at the second name, and then read again.
example : (ringText "SELECT a.b, c.* FROM t WHERE a NOT IN (SELECT 1)" 0).isError = false ∧
    (ringText "SELECT a.b, c.* FROM t; SELECT a.1; BEGIN" 0).isStmt = true ∧
    (ringText "SELECT a.b, c.* FROM t; SELECT a.1; BEGIN" 1).isError = true ∧
    (ringText "SELECT a.b, c.* FROM t; SELECT a.1; BEGIN" 2).isStmt = true ∧
    (ringText "SELECT a.b, c.* FROM t; SELECT a.1; BEGIN" 3).isEof = true := by decide +kernel

/-- `C64_never_loops` with the ring: for every text, the calls of `Parse` return statements and errors,
and then the end of the input or a panic, after at most as many calls as there are tokens. -/
theorem C64_ring_never_loops (env : ParseEnv) (l : List Nat) :
    ∃ k ≤ (tokenize env.toScanEnv l).length,
      (RP.parsedAt env (tokenize env.toScanEnv l) k = .eof ∨
        RP.parsedAt env (tokenize env.toScanEnv l) k = .panic) ∧
      ∀ j < k, (∃ s, RP.parsedAt env (tokenize env.toScanEnv l) j = .stmt s) ∨
        RP.parsedAt env (tokenize env.toScanEnv l) j = .error := by
  obtain ⟨k, h1, h2, h3⟩ := C64_never_loops env l
  have hr : ∀ j < k, parsedAt env (tokenize env.toScanEnv l) j ≠ .panic ∧
      parsedAt env (tokenize env.toScanEnv l) j ≠ .stuck := by
    intro j hj
    rcases h3 j hj with ⟨s, e⟩ | e <;> rw [e] <;> exact ⟨by simp, by simp⟩
  refine ⟨k, h1, ?_, fun j hj => ?_⟩
  · rw [C64_ring env l k hr]
    exact h2
  · rw [C64_ring env l j fun i hi => hr i (by omega)]
    exact h3 j hj

/-- `C64_input_partial` with the ring: for a text without the escape of `C64_escape_panics` and
without `NULL` as the value of a variable, the calls of `Parse` return statements and errors, and then the end of the
input, after at most as many calls as there are tokens. -/
theorem C64_ring_input_partial (env : ParseEnv) (l : List Nat) (h : ¬ PanicEscape l)
    (hn : ∀ ts, ts <:+ tokenize env.toScanEnv l → ¬ NullSetting ts) :
    ∃ k ≤ (tokenize env.toScanEnv l).length, RP.parsedAt env (tokenize env.toScanEnv l) k = .eof ∧
      ∀ j < k, (∃ s, RP.parsedAt env (tokenize env.toScanEnv l) j = .stmt s) ∨
        RP.parsedAt env (tokenize env.toScanEnv l) j = .error := by
  obtain ⟨k, h1, h2, h3⟩ := C64_input_partial env l h hn
  have hr : ∀ j < k, parsedAt env (tokenize env.toScanEnv l) j ≠ .panic ∧
      parsedAt env (tokenize env.toScanEnv l) j ≠ .stuck := by
    intro j hj
    rcases h3 j hj with ⟨s, e⟩ | e <;> rw [e] <;> exact ⟨by simp, by simp⟩
  refine ⟨k, h1, (C64_ring env l k hr).trans h2, fun j hj => ?_⟩
  rw [C64_ring env l j fun i hi => hr i (by omega)]
  exact h3 j hj

example : ¬ PanicEscape (runes "a") ∧ (ringText "a" 0).isError = true ∧
    (ringText "a" 1).isEof = true := by
  exact ⟨not_panicEscape (by decide +kernel), by decide +kernel, by decide +kernel⟩

-- The inputs that panic do so with the ring too.
example : (ringText "USE NULL" 0).isPanic = true ∧ (ringText "E'\\UFFFFFFFD'" 0).isPanic = true := by
  decide +kernel

end Maho
