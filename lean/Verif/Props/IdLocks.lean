import Verif.Lemmas.IdLocks
import Verif.Props.Ident
/-
C24 with the mutex explicit, and C83: which accesses to the tables of identifiers can happen at
the same time.
-/
namespace Maho
open Spec

/-- C24: whatever the schedule of the single accesses, there is a schedule of the atomic sections
in which every call is as far and has the same result, with the same tables when nobody writes. -/
theorem C24_sections_atomic (c : CaseEnv) (events : List LockEvent) :
    let m := LockWorld.initial.run c events
    ∃ sections : List IdEvent,
      (∀ (i : Nat) s q id, m.calls[i]? = some ⟨s, q, .done id⟩ →
        (idWorld0.run c sections).calls[i]? = some ⟨s, q, .done id⟩) ∧
      (idWorld0.run c sections).calls.length = m.calls.length ∧
      (m.writer = false → m.reg = (idWorld0.run c sections).reg) := by
  intro m
  obtain ⟨es, h⟩ := LockSim.run events (LockSim.initial c)
  refine ⟨es, ?_, ?_, h.free⟩
  · intro i s q id hi
    have : (idWorld0.run c es).calls = m.calls.map LockCall.abstract := h.calls
    rw [this]
    simp [hi, LockCall.abstract, LockState.abstract]
  · have : (idWorld0.run c es).calls = m.calls.map LockCall.abstract := h.calls
    rw [this]; simp

/-- C24 for schedules of single accesses: two finished calls have returned the same identifier
exactly when they name the same thing. -/
theorem C24_locked_interning (c : CaseEnv) (events : List LockEvent) (i j : Nat)
    (s t : Bytes) (p q : Bool) (a b : Identifier)
    (hi : (LockWorld.initial.run c events).calls[i]? = some ⟨s, p, .done a⟩)
    (hj : (LockWorld.initial.run c events).calls[j]? = some ⟨t, q, .done b⟩) :
    a = b ↔ sqlName c.upper c.lower s p = sqlName c.upper c.lower t q := by
  obtain ⟨es, h, -⟩ := C24_sections_atomic c events
  exact C24_concurrent_interning c es i j s t p q a b (h i _ _ _ hi) (h j _ _ _ hj)

/-- C24 for schedules of single accesses: whenever nobody writes, the tables hold the identifier of
every finished call, under its name. -/
theorem C24_locked_assigned (c : CaseEnv) (events : List LockEvent) (i : Nat) (s : Bytes) (p : Bool)
    (a : Identifier) (hi : (LockWorld.initial.run c events).calls[i]? = some ⟨s, p, .done a⟩)
    (hw : (LockWorld.initial.run c events).writer = false) :
    let r := (LockWorld.initial.run c events).reg
    internID c r s p = (a, r) ∧ r.string a = (sqlName c.upper c.lower s p).text := by
  intro r
  obtain ⟨es, h, -, h3⟩ := C24_sections_atomic c events
  have := C24_assigned_for_ever c es [] i s p a (h i _ _ _ hi)
  simp only [IdWorld.run, List.foldl_nil] at this
  have h4 := h3 hw
  simp only [IdWorld.run] at h4
  rw [← h4] at this
  exact this

/-- C24: the calls never wait for each other for ever: while a call has not returned, some call can
make a step. -/
theorem C24_no_deadlock (c : CaseEnv) (events : List LockEvent) :
    let m := LockWorld.initial.run c events
    (∃ call ∈ m.calls, ∀ id, call.state ≠ .done id) → ∃ i, m.step c (.run i) ≠ m := by
  intro m hex
  obtain ⟨es, h⟩ := LockSim.run events (LockSim.initial c)
  change LockSim c m _ at h
  generalize IdWorld.run c _ es = w at h
  clear_value m
  have moved : ∀ (i : Nat) (call : LockCall) (st : LockState) (reg : Registry) (n : Nat) (b : Bool),
      m.calls[i]? = some call → st ≠ call.state →
      (⟨reg, n, b, m.calls.set i { call with state := st }, m.prints⟩ : LockWorld) ≠ m := by
    intro i call st reg n b hi hne he
    have hc : m.calls.set i { call with state := st } = m.calls := congrArg LockWorld.calls he
    have hlt : i < m.calls.length := (List.getElem?_eq_some_iff.1 hi).1
    have : (m.calls.set i { call with state := st })[i]? = some call := by rw [hc]; exact hi
    rw [List.getElem?_set_self hlt] at this
    simp only [Option.some.injEq] at this
    exact hne (congrArg LockCall.state this)
  have go : ∀ (i : Nat) (call : LockCall), m.calls[i]? = some call →
      (call.state.inRead = true ∨ call.state.inWrite = true) → m.step c (.run i) ≠ m := by
    intro i call hi hst
    simp only [LockWorld.step, hi]
    obtain ⟨s, q, st⟩ := call
    cases st with
    | read r => cases r <;> exact moved i _ _ _ _ _ hi (by simp)
    | reading => exact moved i _ _ _ _ _ hi (by simp)
    | writing =>
      simp only [LockWorld.advance]
      split <;> exact moved i _ _ _ _ _ hi (by simp)
    | creating => exact moved i _ _ _ _ _ hi (by simp)
    | counted => exact moved i _ _ _ _ _ hi (by simp)
    | stored => exact moved i _ _ _ _ _ hi (by simp)
    | written id => exact moved i _ _ _ _ _ hi (by simp)
    | start => simp [LockState.inRead, LockState.inWrite] at hst
    | missed => simp [LockState.inRead, LockState.inWrite] at hst
    | done id => simp [LockState.inRead, LockState.inWrite] at hst
  cases hw : m.writer with
  | true =>
    have h1 := h.writers
    rw [hw] at h1
    have : 0 < m.calls.countP (·.state.inWrite) := by rw [h1]; decide
    obtain ⟨d, hd, hdw⟩ := List.countP_pos_iff.1 this
    obtain ⟨i, hi⟩ := List.getElem?_of_mem hd
    exact ⟨i, go i d hi (.inr hdw)⟩
  | false =>
    by_cases hr : m.readers = 0
    · obtain ⟨d, hd, hn⟩ := hex
      obtain ⟨i, hi⟩ := List.getElem?_of_mem hd
      refine ⟨i, ?_⟩
      by_cases hs : d.state.inRead = true ∨ d.state.inWrite = true
      · exact go i d hi hs
      · simp only [LockWorld.step, hi]
        obtain ⟨s, q, st⟩ := d
        cases st with
        | start =>
          simp only [LockWorld.advance, hw]
          exact moved i _ _ _ _ _ hi (by simp)
        | missed =>
          simp only [LockWorld.advance, hw, hr]
          exact moved i _ _ _ _ _ hi (by simp)
        | done id => exact absurd rfl (hn id)
        | _ => simp [LockState.inRead, LockState.inWrite] at hs
    · have : 0 < m.calls.countP (·.state.inRead) := by rw [h.readers]; omega
      obtain ⟨d, hd, hdw⟩ := List.countP_pos_iff.1 this
      obtain ⟨i, hi⟩ := List.getElem?_of_mem hd
      exact ⟨i, go i d hi (.inl hdw)⟩

/-! ### C83 -/

/-- C83 for calls of `ID`: no two of them ever access a table or the counter at the same time unless
both only read. The property also claims it for calls of `String`: see `C83_string_races`. -/
theorem C83_calls_partial (c : CaseEnv) (events : List LockEvent) :
    ¬ RaceOfCalls (LockWorld.initial.run c events) := by
  obtain ⟨es, h⟩ := LockSim.run events (LockSim.initial c)
  exact h.noRace

/-- A schedule in which one call of `ID` creates a name and another one, which came later, finds
it, and a third goroutine prints. -/
def lockSample : List LockEvent :=
  [.enter (ascii "tbl") true, .run 0, .run 0, .enter (ascii "tbl") true, .run 1, .run 0, .run 1,
   .run 0, .run 1, .run 0, .run 0, .run 1, .run 0, .run 0, .print 47, .run 0, .run 0,
   .run 1, .run 1, .run 1, .runPrint 0]

example : let m := LockWorld.initial.run ⟨id, id⟩ lockSample
    m.calls = [⟨ascii "tbl", true, .done 47⟩, ⟨ascii "tbl", true, .done 47⟩] ∧
    m.prints = [(47, some (ascii "tbl"))] ∧ m.writer = false := by decide +kernel

/-- The hypothesis of `C24_no_deadlock`: a call that waits for the mutex. -/
example : let m := LockWorld.initial.run ⟨id, id⟩ (lockSample.take 9)
    m.calls.map LockCall.state = [.missed, .missed] := by decide +kernel

/-- C83 fails for `String`: it can be about to read the map of names while `ID` is about to write
it. In Go a map that is read and written at the same time ends the program. -/
theorem C83_string_races : ∃ events, RaceWithString (LockWorld.initial.run ⟨id, id⟩ events) := by
  refine ⟨lockSample.take 15, 0, 0, 47, ⟨ascii "tbl", true, .stored⟩, by decide +kernel,
    by decide +kernel, (.names, true), ?_, rfl, .inl rfl⟩
  decide

end Maho
