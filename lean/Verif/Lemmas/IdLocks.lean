import Verif.Spec.IdLocks
/-
The machine with the explicit mutex does what the machine with atomic sections does.
-/
namespace Maho
open Spec

theorem lookup_kept (c : CaseEnv) (r : Registry) (s : Bytes) (q : Bool) :
    lookupID c r s q false = ((lookupID c r s q false).1, r) := by
  unfold lookupID
  split
  · rfl
  · simp only
    split <;> rfl

theorem lookup_hit {c : CaseEnv} {r : Registry} {s : Bytes} {q : Bool} {id : Identifier}
    (h : (lookupID c r s q false).1 = some id) : lookupID c r s q true = (some id, r) := by
  unfold lookupID at h ⊢
  split at h <;> rename_i hk
  · simp only at h ⊢; rw [h]
  · simp only at h ⊢
    split at h <;> rename_i hl
    · simp only at h ⊢; rw [h]
    · simp at h

/-- The tables after a name has got a new identifier. -/
def Registry.create (r : Registry) (name : Bytes) : Registry :=
  { identifiers := (name, r.last + 1) :: r.identifiers
    names := (r.last + 1, name) :: r.names
    last := r.last + 1 }

theorem lookup_miss {c : CaseEnv} {r : Registry} {s : Bytes} {q : Bool}
    (h : (lookupID c r s q false).1 = none) :
    lookupID c r s q true = (some (r.last + 1), r.create (if q then s else c.lower s)) := by
  unfold lookupID at h ⊢
  split at h <;> rename_i hk
  · simp at h
  · simp only at h ⊢
    split at h <;> rename_i hl
    · simp at h
    · rfl

/-- With the read lock. -/
def LockState.inRead : LockState → Bool
  | .reading | .read _ => true
  | _ => false

/-- With the write lock. -/
def LockState.inWrite : LockState → Bool
  | .writing | .creating | .counted | .stored | .written _ => true
  | _ => false

/-- Where the call is in the machine with atomic sections. A section is made when its last access
is made. -/
def LockState.abstract : LockState → IdState
  | .start | .reading => .start
  | .read (some id) => .done id
  | .read none | .missed | .writing | .creating | .counted | .stored => .missed
  | .written id | .done id => .done id

/-- The same for a call. -/
def LockCall.abstract (call : LockCall) : IdCall := ⟨call.s, call.quoted, call.state.abstract⟩

/-- The lookup of the call finds nothing. -/
def Missing (c : CaseEnv) (r : Registry) (call : LockCall) : Prop :=
  (lookupID c r (truncateName call.s) call.quoted false).1 = none

/-- The tables `r` between the accesses of a call that has the write lock; `r0` is what they were
before. -/
def Between (c : CaseEnv) (r0 r : Registry) (call : LockCall) : Prop :=
  match call.state with
  | .writing | .written _ => r = r0
  | .creating => r = r0 ∧ Missing c r0 call
  | .counted => r = { r0 with last := r0.last + 1 } ∧ Missing c r0 call
  | .stored =>
    r = { r0 with last := r0.last + 1,
                  identifiers := (call.name c, r0.last + 1) :: r0.identifiers } ∧
      Missing c r0 call
  | _ => True

/-- The two machines agree. -/
structure LockSim (c : CaseEnv) (m : LockWorld) (w : IdWorld) : Prop where
  calls : w.calls = m.calls.map LockCall.abstract
  readers : m.calls.countP (·.state.inRead) = m.readers
  writers : m.calls.countP (·.state.inWrite) = m.writer.toNat
  exclusive : m.writer = true → m.readers = 0
  free : m.writer = false → m.reg = w.reg
  between : ∀ (j : Nat) call, m.calls[j]? = some call → Between c w.reg m.reg call

theorem countP_set_add {α : Type} (p : α → Bool) {l : List α} {i : Nat} {a b : α}
    (h : l[i]? = some a) : (l.set i b).countP p + (p a).toNat = l.countP p + (p b).toNat := by
  induction l generalizing i with
  | nil => simp at h
  | cons x l ih =>
    cases i with
    | zero =>
      simp at h; subst h
      simp only [List.set_cons_zero, List.countP_cons]
      cases p x <;> cases p b <;> simp
    | succ i =>
      simp at h
      have := ih h
      simp only [List.set_cons_succ, List.countP_cons]
      omega

theorem countP_pos_of {α : Type} (p : α → Bool) {l : List α} {i : Nat} {a : α}
    (h : l[i]? = some a) (hp : p a = true) : 0 < l.countP p :=
  List.countP_pos_iff.2 ⟨a, List.mem_of_getElem? h, hp⟩

/-- Only one call has the write lock. -/
theorem LockSim.alone {c : CaseEnv} {m : LockWorld} {w : IdWorld} (h : LockSim c m w) {i j : Nat}
    {a b : LockCall} (hi : m.calls[i]? = some a) (hj : m.calls[j]? = some b) (hij : i ≠ j)
    (ha : a.state.inWrite = true) : b.state.inWrite = false := by
  cases hb : b.state.inWrite with
  | false => rfl
  | true =>
    exfalso
    have h1 := countP_set_add (fun x : LockCall => x.state.inWrite) (b := ⟨[], false, .start⟩) hi
    have h2 : (m.calls.set i ⟨[], false, .start⟩)[j]? = some b := by
      rw [List.getElem?_set_ne hij]; exact hj
    have h3 := countP_pos_of (fun x : LockCall => x.state.inWrite) h2 hb
    have h4 := h.writers
    simp only [ha, Bool.toNat_true, show LockState.start.inWrite = false from rfl,
      Bool.toNat_false, Nat.add_zero] at h1
    have h5 : m.writer.toNat ≤ 1 := by cases m.writer <;> decide
    omega

theorem LockSim.writer {c : CaseEnv} {m : LockWorld} {w : IdWorld} (h : LockSim c m w) {i : Nat}
    {a : LockCall} (hi : m.calls[i]? = some a) (ha : a.state.inWrite = true) :
    m.writer = true := by
  have h1 := countP_pos_of (fun x : LockCall => x.state.inWrite) hi ha
  have h2 := h.writers
  cases hw : m.writer with
  | true => rfl
  | false => rw [hw] at h2; simp only [Bool.toNat_false] at h2; omega

theorem LockSim.reader {c : CaseEnv} {m : LockWorld} {w : IdWorld} (h : LockSim c m w) {i : Nat}
    {a : LockCall} (hi : m.calls[i]? = some a) (ha : a.state.inRead = true) :
    m.writer = false ∧ 0 < m.readers := by
  have h1 := countP_pos_of (fun x : LockCall => x.state.inRead) hi ha
  have h2 := h.readers
  refine ⟨?_, by omega⟩
  cases hw : m.writer with
  | false => rfl
  | true => have := h.exclusive hw; omega

/-- What a call that is not in the write section says about the tables. -/
theorem between_of_not {c : CaseEnv} {r0 r : Registry} {call : LockCall}
    (h : call.state.inWrite = false) : Between c r0 r call := by
  unfold Between
  cases hs : call.state <;> simp only [hs, LockState.inWrite] at h ⊢ <;> cases h

/-- One call moves on: what has to be shown. -/
theorem LockSim.move {c : CaseEnv} {m : LockWorld} {w : IdWorld} (h : LockSim c m w) {i : Nat}
    {call : LockCall} (hi : m.calls[i]? = some call) {st : LockState} {reg : Registry}
    {readers : Nat} {writer : Bool} {w' : IdWorld}
    (hcalls : w'.calls = w.calls.set i ⟨call.s, call.quoted, st.abstract⟩)
    (hr : readers + call.state.inRead.toNat = m.readers + st.inRead.toNat)
    (hw : writer.toNat + call.state.inWrite.toNat = m.writer.toNat + st.inWrite.toNat)
    (hex : writer = true → readers = 0)
    (hfree : writer = false → reg = w'.reg)
    (hself : Between c w'.reg reg { call with state := st })
    (hother : call.state.inWrite = true ∨ (reg = m.reg ∧ w'.reg = w.reg)) :
    LockSim c ⟨reg, readers, writer, m.calls.set i { call with state := st }, m.prints⟩ w' := by
  constructor
  · simp only [hcalls, h.calls, List.map_set, LockCall.abstract]
  · have h1 := countP_set_add (fun x : LockCall => x.state.inRead) (b := { call with state := st }) hi
    have h2 := h.readers
    simp only at h1 ⊢
    omega
  · have h1 := countP_set_add (fun x : LockCall => x.state.inWrite)
      (b := { call with state := st }) hi
    have h2 := h.writers
    simp only at h1 ⊢
    omega
  · exact hex
  · exact hfree
  · intro j d hj
    simp only at hj ⊢
    by_cases hij : i = j
    · subst hij
      have hlt : i < m.calls.length := (List.getElem?_eq_some_iff.1 hi).1
      rw [List.getElem?_set_self hlt] at hj
      cases hj
      exact hself
    · rw [List.getElem?_set_ne hij] at hj
      rcases hother with h1 | ⟨rfl, h2⟩
      · exact between_of_not (h.alone hi hj hij h1)
      · rw [h2]; exact h.between j d hj

theorem set_self {α : Type} {l : List α} {i : Nat} {a : α} (h : l[i]? = some a) : l.set i a = l := by
  obtain ⟨hlt, rfl⟩ := List.getElem?_eq_some_iff.1 h
  exact List.set_getElem_self hlt

/-- Every step is none, or one step of the machine with atomic sections. -/
theorem LockSim.advance {c : CaseEnv} {m : LockWorld} {w : IdWorld} (h : LockSim c m w) {i : Nat}
    {call : LockCall} (hi : m.calls[i]? = some call) :
    LockSim c (m.advance c i call) w ∨ LockSim c (m.advance c i call) (w.step c (.run i)) := by
  have hw : w.calls[i]? = some call.abstract := by rw [h.calls]; simp [hi]
  have hkeep : ∀ st : LockState, st.abstract = call.state.abstract →
      w.calls = w.calls.set i ⟨call.s, call.quoted, st.abstract⟩ := by
    intro st hst
    rw [hst]
    exact (set_self hw).symm
  have hstep : ∀ call' r, call.abstract.advance c w.reg = (call', r) →
      w.step c (.run i) = ⟨r, w.calls.set i call'⟩ := by
    intro call' r he
    simp only [IdWorld.step, hw, he]
  obtain ⟨s, q, st⟩ := call
  cases st with
  | start =>
    left
    unfold LockWorld.advance
    simp only
    split
    · exact h
    · rename_i hwr
      have hwr : m.writer = false := by simpa using hwr
      exact h.move hi (hkeep _ rfl) (by simp [LockState.inRead]) (by simp [LockState.inWrite])
        (by simp [hwr]) h.free (between_of_not rfl) (.inr ⟨rfl, rfl⟩)
  | reading =>
    right
    have hreg := h.free (h.reader hi rfl).1
    have hwr := (h.reader hi rfl).1
    unfold LockWorld.advance
    simp only
    rw [hreg]
    have hl := lookup_kept c w.reg (truncateName s) q
    cases hr : (lookupID c w.reg (truncateName s) q false).1 with
    | some id =>
      rw [hr] at hl
      rw [hstep ⟨s, q, .done id⟩ w.reg (by
        simp only [IdCall.advance, LockCall.abstract, LockState.abstract, hl])]
      rw [← hreg]
      exact h.move hi rfl (by simp [LockState.inRead]) (by simp [LockState.inWrite])
        h.exclusive (fun _ => rfl) (between_of_not rfl) (.inr ⟨rfl, hreg⟩)
    | none =>
      rw [hr] at hl
      rw [hstep ⟨s, q, .missed⟩ w.reg (by
        simp only [IdCall.advance, LockCall.abstract, LockState.abstract, hl])]
      rw [← hreg]
      exact h.move hi rfl (by simp [LockState.inRead]) (by simp [LockState.inWrite])
        h.exclusive (fun _ => rfl) (between_of_not rfl) (.inr ⟨rfl, hreg⟩)
  | read r =>
    left
    obtain ⟨hwr, hpos⟩ := h.reader hi rfl
    unfold LockWorld.advance
    cases r with
    | some id =>
      exact h.move hi (hkeep _ rfl) (by simp [LockState.inRead]; omega)
        (by simp [LockState.inWrite]) (by simp [hwr]) h.free (between_of_not rfl)
        (.inr ⟨rfl, rfl⟩)
    | none =>
      exact h.move hi (hkeep _ rfl) (by simp [LockState.inRead]; omega)
        (by simp [LockState.inWrite]) (by simp [hwr]) h.free (between_of_not rfl)
        (.inr ⟨rfl, rfl⟩)
  | missed =>
    left
    unfold LockWorld.advance
    simp only
    split
    · exact h
    · rename_i hn
      simp only [not_or, Bool.not_eq_true, Decidable.not_not] at hn
      exact h.move hi (hkeep _ rfl) (by simp [LockState.inRead])
        (by simp [LockState.inWrite, hn.1]) (fun _ => hn.2) (by simp)
        (h.free hn.1) (.inr ⟨rfl, rfl⟩)
  | writing =>
    have hreg : m.reg = w.reg := h.between i _ hi
    have hwr := h.writer hi rfl
    unfold LockWorld.advance
    simp only
    rw [hreg]
    cases hr : (lookupID c w.reg (truncateName s) q false).1 with
    | some id =>
      right
      rw [hstep ⟨s, q, .done id⟩ w.reg (by
        simp only [IdCall.advance, LockCall.abstract, LockState.abstract, lookup_hit hr])]
      rw [← hreg]
      exact h.move hi rfl (by simp [LockState.inRead]) (by simp [LockState.inWrite])
        h.exclusive (fun _ => rfl) rfl (.inl rfl)
    | none =>
      left
      rw [← hreg]
      exact h.move hi (hkeep _ rfl) (by simp [LockState.inRead]) (by simp [LockState.inWrite])
        h.exclusive h.free ⟨hreg, hr⟩ (.inl rfl)
  | creating =>
    left
    obtain ⟨hreg, hm⟩ : m.reg = w.reg ∧ Missing c w.reg _ := h.between i _ hi
    have hwr := h.writer hi rfl
    unfold LockWorld.advance
    simp only
    exact h.move hi (hkeep _ rfl) (by simp [LockState.inRead]) (by simp [LockState.inWrite])
      h.exclusive (by simp [hwr]) ⟨by rw [hreg], hm⟩ (.inl rfl)
  | counted =>
    left
    obtain ⟨hreg, hm⟩ : m.reg = _ ∧ Missing c w.reg _ := h.between i _ hi
    have hwr := h.writer hi rfl
    unfold LockWorld.advance
    simp only
    exact h.move hi (hkeep _ rfl) (by simp [LockState.inRead]) (by simp [LockState.inWrite])
      h.exclusive (by simp [hwr]) ⟨by rw [hreg]; rfl, hm⟩ (.inl rfl)
  | stored =>
    right
    obtain ⟨hreg, hm⟩ : m.reg = _ ∧ Missing c w.reg _ := h.between i _ hi
    have hwr := h.writer hi rfl
    have hl := lookup_miss hm
    simp only at hl
    rw [hstep ⟨s, q, .done (w.reg.last + 1)⟩ _ (by
      simp only [IdCall.advance, LockCall.abstract, LockState.abstract, hl]; rfl)]
    unfold LockWorld.advance
    simp only
    rw [hreg]
    exact h.move hi rfl (by simp [LockState.inRead]) (by simp [LockState.inWrite])
      h.exclusive (by simp [hwr]) rfl (.inl rfl)
  | written id =>
    left
    have hreg : m.reg = w.reg := h.between i _ hi
    have hwr := h.writer hi rfl
    unfold LockWorld.advance
    simp only
    exact h.move hi (hkeep _ rfl) (by simp [LockState.inRead])
      (by simp [LockState.inWrite, hwr]) (by simp) (fun _ => hreg) (between_of_not rfl) (.inl rfl)
  | done id =>
    left
    exact h

theorem LockSim.step {c : CaseEnv} {m : LockWorld} {w : IdWorld} (h : LockSim c m w) (e : LockEvent) :
    ∃ es, LockSim c (m.step c e) (w.run c es) := by
  cases e with
  | enter s q =>
    refine ⟨[.enter s q], ?_⟩
    constructor
    · simp [IdWorld.run, IdWorld.step, LockWorld.step, h.calls, LockCall.abstract,
        LockState.abstract]
    · simp only [LockWorld.step, List.countP_append, h.readers]; rfl
    · simp only [LockWorld.step, List.countP_append, h.writers]; rfl
    · exact h.exclusive
    · exact h.free
    · intro j call hj
      simp only [LockWorld.step] at hj
      rw [List.getElem?_append] at hj
      split at hj
      · exact h.between j call hj
      · have := List.mem_of_getElem? hj
        simp at this
        subst this
        exact between_of_not rfl
  | run i =>
    simp only [LockWorld.step]
    split
    · exact ⟨[], h⟩
    · rename_i call hi
      rcases h.advance hi with h1 | h1
      · exact ⟨[], h1⟩
      · exact ⟨[.run i], h1⟩
  | print id => exact ⟨[], h.calls, h.readers, h.writers, h.exclusive, h.free, h.between⟩
  | runPrint i =>
    refine ⟨[], ?_⟩
    simp only [LockWorld.step]
    split
    · exact ⟨h.calls, h.readers, h.writers, h.exclusive, h.free, h.between⟩
    · exact h

theorem LockSim.run {c : CaseEnv} (events : List LockEvent) : ∀ {m : LockWorld} {w : IdWorld},
    LockSim c m w → ∃ es, LockSim c (m.run c events) (w.run c es) := by
  induction events with
  | nil => intro m w h; exact ⟨[], h⟩
  | cons e events ih =>
    intro m w h
    obtain ⟨es, h1⟩ := h.step e
    obtain ⟨es', h2⟩ := ih h1
    refine ⟨es ++ es', ?_⟩
    simpa [IdWorld.run, LockWorld.run, List.foldl_append] using h2

theorem LockSim.initial (c : CaseEnv) : LockSim c LockWorld.initial ⟨Registry.initial, []⟩ :=
  ⟨rfl, rfl, rfl, by simp [LockWorld.initial], fun _ => rfl, by simp [LockWorld.initial]⟩

/-- No races between calls of `ID`. -/
theorem LockSim.noRace {c : CaseEnv} {m : LockWorld} {w : IdWorld} (h : LockSim c m w) :
    ¬ RaceOfCalls m := by
  rintro ⟨i, j, a, b, hij, hi, hj, x, hx, y, hy, he, hc⟩
  have hw : ∀ (st : LockState) v, (v, true) ∈ accesses st → st.inWrite = true := by
    intro st v hv
    cases st <;> simp [accesses, LockState.inWrite] at hv ⊢
  have hrw : ∀ (st : LockState) v, v ∈ accesses st → st.inWrite = true ∨ st.inRead = true := by
    intro st v hv
    cases st <;> simp [accesses, LockState.inWrite, LockState.inRead] at hv ⊢
  have key : ∀ (i j : Nat) (a b : LockCall) (v : IdVar × Bool), i ≠ j → m.calls[i]? = some a →
      m.calls[j]? = some b → a.state.inWrite = true → v ∈ accesses b.state → False := by
    intro i j a b v hij hi hj ha hv
    rcases hrw _ _ hv with h1 | h1
    · rw [h.alone hi hj hij ha] at h1; cases h1
    · have := (h.reader hj h1).1
      rw [h.writer hi ha] at this
      cases this
  obtain ⟨vx, bx⟩ := x
  obtain ⟨vy, bY⟩ := y
  rcases hc with hc | hc <;> simp only at hc <;> subst hc
  · exact key i j a b _ hij hi hj (hw _ _ hx) hy
  · exact key j i b a _ (Ne.symm hij) hj hi (hw _ _ hy) hx

end Maho
