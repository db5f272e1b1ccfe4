import Verif.Model.Ident
import Verif.Spec.Ident
/-
Lemmas on the identifier tables.
-/
namespace Maho
open Spec

theorem truncateName_eq (s : Bytes) : truncateName s = s.take 128 := by
  unfold truncateName maxIdentifier
  split
  · rfl
  · rw [List.take_of_length_le (by omega)]

theorem mem_of_lookup {α β : Type} [BEq α] [LawfulBEq α] {l : List (α × β)} {a : α} {b : β}
    (h : l.lookup a = some b) : (a, b) ∈ l := by
  induction l with
  | nil => simp at h
  | cons p l ih =>
    rw [List.lookup_cons] at h
    cases hb : a == p.1 with
    | true =>
      simp only [hb] at h
      have := eq_of_beq hb
      cases h; subst this; simp
    | false =>
      simp only [hb] at h
      exact List.mem_cons_of_mem _ (ih h)

/-- All facts about the keyword table that the proofs use. -/
theorem keyword_facts : ∀ p ∈ keywordTable,
    (reservedWords ++ openWords).find? (fun w => ascii w = ascii p.1) = some p.1 ∧
    keywordTable.lookup p.1 = some p.2 ∧ keywords.lookup (ascii p.1) = some p.2 ∧
    Registry.initial.names.lookup p.2 = some (ascii p.1) ∧ p.2 ≤ 46 ∧ p.2 ≠ 0 ∧
    (p.2 < 0 ↔ p.1 ∈ reservedWords) := by decide +kernel

theorem word_facts : ∀ w ∈ reservedWords ++ openWords, (keywordTable.lookup w).isSome := by
  decide +kernel

theorem initial_facts : Registry.initial.last = 46 ∧
    (∀ p ∈ Registry.initial.identifiers, Registry.initial.names.lookup p.2 = some p.1 ∧
      0 ≤ p.2 ∧ ∀ k ∈ keywordTable, k.2 ≠ p.2) ∧
    (∀ p ∈ Registry.initial.names, p.1 ≤ 46) := by decide +kernel

theorem keyword_ids_distinct : ∀ p ∈ keywordTable, ∀ q ∈ keywordTable, p.2 = q.2 → p.1 = q.1 := by
  decide +kernel

theorem keywords_lookup (u : Bytes) (id : Identifier) :
    keywords.lookup u = some id ↔
      ∃ w, (reservedWords ++ openWords).find? (fun w => ascii w = u) = some w ∧
        keywordTable.lookup w = some id := by
  constructor
  · intro h
    have := mem_of_lookup h
    unfold keywords at this
    obtain ⟨p, hp, he⟩ := List.mem_map.1 this
    cases he
    obtain ⟨h1, h2, h3, _⟩ := keyword_facts p hp
    rw [h3] at h
    exact ⟨p.1, h1, h2⟩
  · rintro ⟨w, hw, hid⟩
    have hp := mem_of_lookup hid
    have e := List.find?_some hw
    simp only [decide_eq_true_eq] at e
    subst e
    exact (keyword_facts _ hp).2.2.1

theorem keywords_lookup_none (u : Bytes) :
    keywords.lookup u = none ↔ (reservedWords ++ openWords).find? (fun w => ascii w = u) = none := by
  constructor
  · intro h
    cases hf : (reservedWords ++ openWords).find? (fun w => ascii w = u) with
    | none => rfl
    | some w =>
      have hm := List.mem_of_find?_eq_some hf
      have := word_facts w hm
      obtain ⟨id, hid⟩ := Option.isSome_iff_exists.1 this
      have := (keywords_lookup u id).2 ⟨w, hf, hid⟩
      rw [h] at this; cases this
  · intro h
    cases hf : keywords.lookup u with
    | none => rfl
    | some id =>
      obtain ⟨w, hw, _⟩ := (keywords_lookup u id).1 hf
      rw [h] at hw; cases hw

/-- The identifier a name has in the tables, if any. -/
def Registry.idOf (r : Registry) : SqlName → Option Identifier
  | .keyword w => keywordTable.lookup w
  | .name s => r.identifiers.lookup s

/-- Giving a new name the next identifier. -/
def Registry.add (r : Registry) (s : Bytes) : Registry :=
  { identifiers := (s, r.last + 1) :: r.identifiers, names := (r.last + 1, s) :: r.names,
    last := r.last + 1 }

theorem lookupID_hit {c : CaseEnv} {r : Registry} {s : Bytes} {q create : Bool} {id : Identifier}
    (h : r.idOf (sqlName c.upper c.lower s q) = some id) :
    lookupID c r (truncateName s) q create = (some id, r) := by
  rw [truncateName_eq]
  unfold lookupID
  unfold sqlName at h
  cases q with
  | true =>
    simp only [↓reduceIte, Registry.idOf] at h ⊢
    rw [h]
  | false =>
    simp only [Bool.false_eq_true, ↓reduceIte] at h ⊢
    cases hk : keywords.lookup (c.upper (s.take 128)) with
    | some id' =>
      obtain ⟨w, hw, hid⟩ := (keywords_lookup _ _).1 hk
      rw [hw] at h
      simp only [Registry.idOf] at h
      rw [hid] at h; cases h; rfl
    | none =>
      have hn := (keywords_lookup_none _).1 hk
      rw [hn] at h
      simp only [Registry.idOf] at h
      simp only [h]

theorem lookupID_miss {c : CaseEnv} {r : Registry} {s : Bytes} {q create : Bool}
    (h : r.idOf (sqlName c.upper c.lower s q) = none) :
    ∃ n, sqlName c.upper c.lower s q = .name n ∧
      lookupID c r (truncateName s) q create =
        if create then (some (r.last + 1), r.add n) else (none, r) := by
  rw [truncateName_eq]
  unfold lookupID
  unfold sqlName at h ⊢
  cases q with
  | true =>
    simp only [↓reduceIte, Registry.idOf] at h ⊢
    refine ⟨_, rfl, ?_⟩
    rw [h]; rfl
  | false =>
    simp only [Bool.false_eq_true, ↓reduceIte] at h ⊢
    cases hk : keywords.lookup (c.upper (s.take 128)) with
    | some id' =>
      obtain ⟨w, hw, hid⟩ := (keywords_lookup _ _).1 hk
      rw [hw] at h
      simp only [Registry.idOf] at h
      rw [hid] at h; cases h
    | none =>
      have hn := (keywords_lookup_none _).1 hk
      rw [hn] at h ⊢
      simp only [Registry.idOf] at h
      refine ⟨_, rfl, ?_⟩
      simp only [h]; rfl

/-- The invariant of the tables. -/
structure RegInv (r : Registry) : Prop where
  ids : ∀ s id, r.identifiers.lookup s = some id →
    r.names.lookup id = some s ∧ 0 ≤ id ∧ ∀ k ∈ keywordTable, k.2 ≠ id
  kws : ∀ k ∈ keywordTable, r.names.lookup k.2 = some (ascii k.1)
  bound : ∀ p ∈ r.names, p.1 ≤ r.last
  last : 46 ≤ r.last
  zero : r.identifiers.lookup [] = some 0

theorem regInv_initial : RegInv Registry.initial := by
  obtain ⟨h1, h2, h3⟩ := initial_facts
  refine ⟨?_, ?_, ?_, by omega, by decide +kernel⟩
  · intro s id h
    exact h2 (s, id) (mem_of_lookup h)
  · intro k hk
    exact (keyword_facts k hk).2.2.2.1
  · rw [h1]; exact h3

theorem RegInv.fresh {r : Registry} (h : RegInv r) : r.names.lookup (r.last + 1) = none := by
  cases hl : r.names.lookup (r.last + 1) with
  | none => rfl
  | some s =>
    have := h.bound _ (mem_of_lookup hl)
    simp only at this; omega

theorem RegInv.add {r : Registry} (h : RegInv r) {s : Bytes}
    (hs : r.identifiers.lookup s = none) : RegInv (r.add s) := by
  have hf := h.fresh
  have hne : ∀ id n, r.names.lookup id = some n → (r.add s).names.lookup id = some n := by
    intro id n hn
    simp only [Registry.add, List.lookup_cons]
    have : (id == r.last + 1) = false := by
      rw [beq_eq_false_iff_ne]; rintro rfl; rw [hf] at hn; cases hn
    rw [this]; exact hn
  refine ⟨?_, ?_, ?_, ?_, ?_⟩
  · intro t id ht
    simp only [Registry.add, List.lookup_cons] at ht
    by_cases hts : t = s
    · subst hts
      simp only [beq_self_eq_true] at ht
      cases ht
      refine ⟨by simp [Registry.add], by have := h.last; omega, ?_⟩
      intro k hk he
      have h2 := h.kws k hk
      rw [he, hf] at h2; cases h2
    · have : (t == s) = false := by rw [beq_eq_false_iff_ne]; exact hts
      rw [this] at ht
      obtain ⟨a, b, c⟩ := h.ids t id ht
      exact ⟨hne _ _ a, b, c⟩
  · intro k hk; exact hne _ _ (h.kws k hk)
  · intro p hp
    simp only [Registry.add, List.mem_cons] at hp ⊢
    rcases hp with rfl | hp
    · simp
    · have := h.bound p hp; omega
  · have := h.last; simp only [Registry.add]; omega
  · simp only [Registry.add, List.lookup_cons]
    have : (([] : Bytes) == s) = false := by
      rw [beq_eq_false_iff_ne]; rintro rfl; rw [h.zero] at hs; cases hs
    rw [this]; exact h.zero

/-- Later tables keep everything earlier ones say. -/
structure RegExt (r r' : Registry) : Prop where
  idOf : ∀ n id, r.idOf n = some id → r'.idOf n = some id
  names : ∀ id s, r.names.lookup id = some s → r'.names.lookup id = some s

theorem RegExt.refl (r : Registry) : RegExt r r := ⟨fun _ _ h => h, fun _ _ h => h⟩

theorem RegExt.trans {a b c : Registry} (h1 : RegExt a b) (h2 : RegExt b c) : RegExt a c :=
  ⟨fun n id h => h2.idOf n id (h1.idOf n id h), fun n id h => h2.names n id (h1.names n id h)⟩

theorem regExt_add {r : Registry} (h : RegInv r) {s : Bytes}
    (hs : r.identifiers.lookup s = none) : RegExt r (r.add s) := by
  constructor
  · intro n id hn
    cases n with
    | keyword w => exact hn
    | name t =>
      simp only [Registry.idOf, Registry.add, List.lookup_cons] at hn ⊢
      have : (t == s) = false := by
        rw [beq_eq_false_iff_ne]; rintro rfl; rw [hs] at hn; cases hn
      rw [this]; exact hn
  · intro id n hn
    simp only [Registry.add, List.lookup_cons]
    have : (id == r.last + 1) = false := by
      rw [beq_eq_false_iff_ne]; rintro rfl; rw [h.fresh] at hn; cases hn
    rw [this]; exact hn

/-- Different names have different identifiers. -/
theorem RegInv.inj {r : Registry} (h : RegInv r) {a b : SqlName} {id : Identifier}
    (ha : r.idOf a = some id) (hb : r.idOf b = some id) : a = b := by
  cases a with
  | keyword v =>
    have hv := mem_of_lookup ha
    cases b with
    | keyword w =>
      have := keyword_ids_distinct _ hv _ (mem_of_lookup hb) rfl
      simp only at this; rw [this]
    | name t => exact absurd rfl ((h.ids t id hb).2.2 _ hv)
  | name s =>
    have hs := h.ids s id ha
    cases b with
    | keyword w => exact absurd rfl (hs.2.2 _ (mem_of_lookup hb))
    | name t =>
      have ht := h.ids t id hb
      rw [hs.1] at ht
      cases ht.1; rfl

theorem RegInv.string {r : Registry} (h : RegInv r) {n : SqlName} {id : Identifier}
    (hn : r.idOf n = some id) : r.string id = n.text := by
  unfold Registry.string
  cases n with
  | keyword w => rw [h.kws _ (mem_of_lookup hn)]; rfl
  | name s => rw [(h.ids s id hn).1]; rfl

theorem RegInv.reserved {r : Registry} (h : RegInv r) {n : SqlName} {id : Identifier}
    (hn : r.idOf n = some id) : id < 0 ↔ ∃ w ∈ reservedWords, n = .keyword w := by
  cases n with
  | keyword w =>
    have := (keyword_facts _ (mem_of_lookup hn)).2.2.2.2.2.2
    rw [this]
    simp
  | name s =>
    have := (h.ids s id hn).2.1
    constructor
    · intro; omega
    · rintro ⟨w, _, hw⟩; cases hw

/-- One call of `ID`. -/
theorem internID_spec {c : CaseEnv} {r : Registry} (h : RegInv r) (s : Bytes) (q : Bool) :
    ∃ id r', internID c r s q = (id, r') ∧ RegInv r' ∧ RegExt r r' ∧
      r'.idOf (sqlName c.upper c.lower s q) = some id := by
  unfold internID
  simp only
  cases hi : r.idOf (sqlName c.upper c.lower s q) with
  | some id =>
    rw [lookupID_hit hi]
    exact ⟨id, r, rfl, h, RegExt.refl r, hi⟩
  | none =>
    obtain ⟨n, hn, hl⟩ := lookupID_miss (create := false) hi
    obtain ⟨n', hn', hl'⟩ := lookupID_miss (create := true) hi
    rw [hn] at hn'
    cases hn'
    simp only [hl, hl', Bool.false_eq_true, ↓reduceIte]
    have hs : r.identifiers.lookup n = none := by rw [hn] at hi; exact hi
    refine ⟨_, _, rfl, h.add hs, regExt_add h hs, ?_⟩
    rw [hn]
    simp [Registry.idOf, Registry.add]

/-- A call that finds its name returns its identifier and changes nothing. -/
theorem internID_hit {c : CaseEnv} {r : Registry} {s : Bytes} {q : Bool} {id : Identifier}
    (h : r.idOf (sqlName c.upper c.lower s q) = some id) : internID c r s q = (id, r) := by
  unfold internID
  simp only
  rw [lookupID_hit h]

/-- The invariant of the concurrent world. -/
structure IdInv (c : CaseEnv) (w : IdWorld) : Prop where
  reg : RegInv w.reg
  done : ∀ call ∈ w.calls, ∀ id, call.state = .done id →
    w.reg.idOf (sqlName c.upper c.lower call.s call.quoted) = some id

theorem advance_spec {c : CaseEnv} {r : Registry} (h : RegInv r) (call : IdCall)
    (hd : ∀ id, call.state = .done id →
      r.idOf (sqlName c.upper c.lower call.s call.quoted) = some id) :
    ∃ call' r', call.advance c r = (call', r') ∧ RegInv r' ∧ RegExt r r' ∧
      call'.s = call.s ∧ call'.quoted = call.quoted ∧
      (∀ id, call.state = .done id → call' = call) ∧
      (∀ id, call'.state = .done id →
        r'.idOf (sqlName c.upper c.lower call.s call.quoted) = some id) := by
  unfold IdCall.advance
  cases hst : call.state with
  | start =>
    simp only
    cases hi : r.idOf (sqlName c.upper c.lower call.s call.quoted) with
    | some id =>
      rw [lookupID_hit hi]
      refine ⟨_, _, rfl, h, RegExt.refl r, rfl, rfl, ?_, ?_⟩
      · intro id h; cases h
      · intro id' h; cases h; exact hi
    | none =>
      obtain ⟨n, hn, hl⟩ := lookupID_miss (create := false) hi
      simp only [hl, Bool.false_eq_true, ↓reduceIte]
      refine ⟨_, _, rfl, h, RegExt.refl r, rfl, rfl, ?_, ?_⟩
      · intro id h; cases h
      · intro id' h; cases h
  | missed =>
    simp only
    cases hi : r.idOf (sqlName c.upper c.lower call.s call.quoted) with
    | some id =>
      rw [lookupID_hit hi]
      refine ⟨_, _, rfl, h, RegExt.refl r, rfl, rfl, ?_, ?_⟩
      · intro id h; cases h
      · intro id' h; cases h; exact hi
    | none =>
      obtain ⟨n, hn, hl⟩ := lookupID_miss (create := true) hi
      simp only [hl, ↓reduceIte]
      have hs : r.identifiers.lookup n = none := by rw [hn] at hi; exact hi
      refine ⟨_, _, rfl, h.add hs, regExt_add h hs, rfl, rfl, ?_, ?_⟩
      · intro id h; cases h
      · intro id' h
        cases h
        rw [hn]
        simp [Registry.idOf, Registry.add]
  | done id =>
    simp only
    refine ⟨_, _, rfl, h, RegExt.refl r, rfl, rfl, fun _ _ => rfl, ?_⟩
    intro id' h
    rw [hst] at h
    cases h
    exact hd _ hst

theorem step_spec {c : CaseEnv} {w : IdWorld} (h : IdInv c w) (e : IdEvent) :
    IdInv c (w.step c e) ∧ RegExt w.reg (w.step c e).reg ∧
      ∀ (i : Nat) call, w.calls[i]? = some call →
        ∃ call', (w.step c e).calls[i]? = some call' ∧ call'.s = call.s ∧
          call'.quoted = call.quoted ∧ ∀ id, call.state = .done id → call' = call := by
  cases e with
  | enter s q =>
    refine ⟨⟨h.reg, ?_⟩, RegExt.refl _, ?_⟩
    · intro call hc id hid
      simp only [IdWorld.step, List.mem_append, List.mem_singleton] at hc
      rcases hc with hc | rfl
      · exact h.done call hc id hid
      · cases hid
    · intro i call hc
      refine ⟨call, ?_, rfl, rfl, fun _ _ => rfl⟩
      simp only [IdWorld.step]
      rw [List.getElem?_append_left (List.getElem?_eq_some_iff.1 hc).1]
      exact hc
  | run i =>
    unfold IdWorld.step
    simp only
    cases hc : w.calls[i]? with
    | none => exact ⟨h, RegExt.refl _, fun j call hj => ⟨call, hj, rfl, rfl, fun _ _ => rfl⟩⟩
    | some call =>
      obtain ⟨call', r', he, hr, hx, h1, h2, h3, h4⟩ :=
        advance_spec (c := c) h.reg call (h.done call (List.mem_of_getElem? hc))
      simp only [he]
      have hlt := (List.getElem?_eq_some_iff.1 hc).1
      refine ⟨⟨hr, ?_⟩, hx, ?_⟩
      · intro call2 hm id hid
        rcases List.mem_or_eq_of_mem_set hm with hm | rfl
        · exact hx.idOf _ _ (h.done call2 hm id hid)
        · rw [h1, h2]; exact h4 id hid
      · intro j call2 hj
        by_cases hij : i = j
        · subst hij
          rw [hc] at hj; cases hj
          exact ⟨call', by rw [List.getElem?_set_self hlt], h1, h2, h3⟩
        · exact ⟨call2, by rw [List.getElem?_set_ne hij]; exact hj, rfl, rfl, fun _ _ => rfl⟩

theorem run_spec {c : CaseEnv} (events : List IdEvent) : ∀ {w : IdWorld}, IdInv c w →
    IdInv c (w.run c events) ∧ RegExt w.reg (w.run c events).reg ∧
      ∀ (i : Nat) call, w.calls[i]? = some call →
        ∃ call', (w.run c events).calls[i]? = some call' ∧ call'.s = call.s ∧
          call'.quoted = call.quoted ∧ ∀ id, call.state = .done id → call' = call := by
  induction events with
  | nil =>
    intro w h
    exact ⟨h, RegExt.refl _, fun j call hj => ⟨call, hj, rfl, rfl, fun _ _ => rfl⟩⟩
  | cons e events ih =>
    intro w h
    obtain ⟨a1, a2, a3⟩ := step_spec h e
    obtain ⟨b1, b2, b3⟩ := ih a1
    refine ⟨b1, a2.trans b2, ?_⟩
    intro i call hc
    obtain ⟨c1, hc1, e1, e2, e3⟩ := a3 i call hc
    obtain ⟨c2, hc2, f1, f2, f3⟩ := b3 i c1 hc1
    refine ⟨c2, hc2, f1.trans e1, f2.trans e2, ?_⟩
    intro id hid
    have := e3 id hid
    subst this
    exact f3 id hid

end Maho

namespace Maho
open Spec

theorem internAll_spec {c : CaseEnv} (calls : List (Bytes × Bool)) : ∀ {r : Registry}, RegInv r →
    ∃ ids r', internAll c r calls = (ids, r') ∧ RegInv r' ∧ RegExt r r' ∧
      ids.length = calls.length ∧
      ∀ (i : Nat) s q, calls[i]? = some (s, q) →
        ∃ id, ids[i]? = some id ∧ r'.idOf (sqlName c.upper c.lower s q) = some id := by
  induction calls with
  | nil => intro r h; exact ⟨_, _, rfl, h, RegExt.refl r, rfl, by intro i s q hc; simp at hc⟩
  | cons p calls ih =>
    intro r h
    obtain ⟨s, q⟩ := p
    obtain ⟨id, r1, e1, h1, x1, i1⟩ := internID_spec (c := c) h s q
    obtain ⟨ids, r2, e2, h2, x2, hl, i2⟩ := ih h1
    refine ⟨id :: ids, r2, ?_, h2, x1.trans x2, by simp [hl], ?_⟩
    · unfold internAll; simp only [e1, e2]
    · intro i s' q' hc
      cases i with
      | zero =>
        simp only [List.getElem?_cons_zero, Option.some.injEq, Prod.mk.injEq] at hc
        obtain ⟨rfl, rfl⟩ := hc
        exact ⟨id, rfl, x2.idOf _ _ i1⟩
      | succ i =>
        simp only [List.getElem?_cons_succ] at hc ⊢
        exact i2 i s' q' hc

/-- The tables after any history satisfy the invariant. -/
theorem regInv_history (c : CaseEnv) (calls : List (Bytes × Bool)) :
    RegInv (internAll c Registry.initial calls).2 := by
  obtain ⟨_, _, he, h, _⟩ := internAll_spec (c := c) calls regInv_initial
  rw [he]; exact h

theorem ascii_word_facts : ∀ w ∈ reservedWords, (ascii w).map asciiUpper = ascii w ∧
    (ascii w).take 128 = ascii w ∧ (∀ b ∈ ascii w, b.toNat < 128) ∧
    (reservedWords ++ openWords).find? (fun v => ascii v = ascii w) = some w := by
  decide +kernel

end Maho
