import Verif.Lemmas.Ident
/-
Properties C23-C27: identifiers.
-/
namespace Maho
open Spec

/-- An instance of the case functions that is exact on ASCII. -/
def asciiEnv : CaseEnv := ⟨fun s => s.map asciiUpper, fun s => s.map asciiLower⟩

example : AsciiCase asciiEnv.upper asciiEnv.lower := ⟨fun _ _ => rfl, fun _ _ => rfl⟩

/-! ### C23 -/

/-- C23: in any history of `ID` calls, two calls return the same identifier exactly when they
name the same thing. -/
theorem C23_interning (c : CaseEnv) (calls : List (Bytes × Bool)) (i j : Nat) (s t : Bytes)
    (p q : Bool) (hi : calls[i]? = some (s, p)) (hj : calls[j]? = some (t, q)) :
    ∃ a b, (internAll c Registry.initial calls).1[i]? = some a ∧
      (internAll c Registry.initial calls).1[j]? = some b ∧
      (a = b ↔ sqlName c.upper c.lower s p = sqlName c.upper c.lower t q) := by
  obtain ⟨ids, r, he, h, _, _, h2⟩ := internAll_spec (c := c) calls regInv_initial
  obtain ⟨a, ha, hsa⟩ := h2 i s p hi
  obtain ⟨b, hb, htb⟩ := h2 j t q hj
  rw [he]
  refine ⟨a, b, ha, hb, ?_, ?_⟩
  · rintro rfl; exact h.inj hsa htb
  · intro e
    rw [e] at hsa
    rw [hsa] at htb
    exact Option.some.inj htb

example : (internAll asciiEnv Registry.initial
    [(ascii "Abc", false), (ascii "aBC", false), (ascii "Abc", true), (ascii "text", false),
     (ascii "text", true), (ascii "Tables", false)]).1 = [47, 47, 48, 43, 49, 42] := by
  decide +kernel

/-! ### C24 -/

/-- The world before any call. -/
def idWorld0 : IdWorld := ⟨Registry.initial, []⟩

theorem idInv0 (c : CaseEnv) : IdInv c idWorld0 :=
  ⟨regInv_initial, by intro call h; simp [idWorld0] at h⟩

/-- C24: under any schedule, two finished calls have returned the same identifier exactly when
they name the same thing. -/
theorem C24_concurrent_interning (c : CaseEnv) (events : List IdEvent) (i j : Nat)
    (s t : Bytes) (p q : Bool) (a b : Identifier)
    (hi : (idWorld0.run c events).calls[i]? = some ⟨s, p, .done a⟩)
    (hj : (idWorld0.run c events).calls[j]? = some ⟨t, q, .done b⟩) :
    a = b ↔ sqlName c.upper c.lower s p = sqlName c.upper c.lower t q := by
  have h := (run_spec events (idInv0 c)).1
  have ha := h.done _ (List.mem_of_getElem? hi) a rfl
  have hb := h.done _ (List.mem_of_getElem? hj) b rfl
  constructor
  · rintro rfl; exact h.reg.inj ha hb
  · intro e
    simp only [e] at ha
    rw [ha] at hb
    exact Option.some.inj hb

/-- C24: the identifier a call has returned stays assigned to its name for ever: whatever is
scheduled later, asking again gives the same identifier and creates nothing, and the identifier
prints as that name. -/
theorem C24_assigned_for_ever (c : CaseEnv) (events later : List IdEvent) (i : Nat)
    (s : Bytes) (p : Bool) (a : Identifier)
    (hi : (idWorld0.run c events).calls[i]? = some ⟨s, p, .done a⟩) :
    let r := ((idWorld0.run c events).run c later).reg
    internID c r s p = (a, r) ∧ r.string a = (sqlName c.upper c.lower s p).text := by
  have h := (run_spec events (idInv0 c)).1
  have ha := h.done _ (List.mem_of_getElem? hi) a rfl
  obtain ⟨h2, hx, _⟩ := run_spec later h
  have := hx.idOf _ _ ha
  exact ⟨internID_hit this, h2.reg.string this⟩

/-- C24: a call that has returned is not changed by anything later. -/
theorem C24_result_kept (c : CaseEnv) (events later : List IdEvent) (i : Nat)
    (s : Bytes) (p : Bool) (a : Identifier)
    (hi : (idWorld0.run c events).calls[i]? = some ⟨s, p, .done a⟩) :
    ((idWorld0.run c events).run c later).calls[i]? = some ⟨s, p, .done a⟩ := by
  have h := (run_spec events (idInv0 c)).1
  obtain ⟨_, _, h3⟩ := run_spec later h
  obtain ⟨call', hc, _, _, h4⟩ := h3 i _ hi
  rw [h4 a rfl] at hc
  exact hc

/-- C24: no schedule gives one identifier two names: if two finished calls returned the same
identifier, it prints as the name of both. -/
theorem C24_one_name (c : CaseEnv) (events : List IdEvent) (i j : Nat)
    (s t : Bytes) (p q : Bool) (a : Identifier)
    (hi : (idWorld0.run c events).calls[i]? = some ⟨s, p, .done a⟩)
    (hj : (idWorld0.run c events).calls[j]? = some ⟨t, q, .done a⟩) :
    (sqlName c.upper c.lower s p).text = (sqlName c.upper c.lower t q).text := by
  have := (C24_concurrent_interning c events i j s t p q a a hi hj).1 rfl
  rw [this]

/-- C24: every call returns after at most two of its own steps, whatever the others do in
between. -/
theorem C24_progress (c : CaseEnv) (events mid : List IdEvent) (i : Nat) :
    let w := idWorld0.run c events
    i < w.calls.length →
    ∃ a, ((((w.step c (.run i)).run c mid).step c (.run i)).calls[i]?).map IdCall.state
      = some (.done a) := by
  intro w hlt
  have hw : IdInv c w := (run_spec events (idInv0 c)).1
  have hi : w.calls[i]? = some w.calls[i] := List.getElem?_eq_getElem hlt
  generalize w.calls[i] = call at hi
  have key : ∀ (w : IdWorld) (call : IdCall), IdInv c w → w.calls[i]? = some call →
      ∃ call', (w.step c (.run i)).calls[i]? = some call' ∧
        (call'.state = .start → False) ∧
        (call.state ≠ .start → ∃ a, call'.state = .done a) := by
    intro w call hw hi
    have hlt := (List.getElem?_eq_some_iff.1 hi).1
    unfold IdWorld.step
    simp only [hi]
    rw [List.getElem?_set_self hlt]
    refine ⟨_, rfl, ?_, ?_⟩
    · unfold IdCall.advance
      cases hst : call.state with
      | start =>
        simp only
        split <;> (intro h; cases h)
      | missed =>
        simp only
        split <;> (intro h; cases h)
      | done a => simp [hst]
    · unfold IdCall.advance
      cases hst : call.state with
      | start => intro h; exact absurd rfl h
      | missed =>
        intro _
        simp only
        split <;> exact ⟨_, rfl⟩
      | done a => intro _; simp only; exact ⟨a, hst⟩
  obtain ⟨c1, h1, h1s, _⟩ := key w call hw hi
  have hw1 := (step_spec hw (.run i)).1
  obtain ⟨hw2, _, hk⟩ := run_spec mid hw1
  obtain ⟨c2, h2, _, _, _⟩ := hk i c1 h1
  have h2s : c2.state ≠ .start := by
    intro hs
    -- the state of a call never goes back to the start
    have back : ∀ (evs : List IdEvent) (w : IdWorld) (call : IdCall), IdInv c w →
        w.calls[i]? = some call → call.state ≠ .start →
        ∀ call', (w.run c evs).calls[i]? = some call' → call'.state ≠ .start := by
      intro evs
      induction evs with
      | nil =>
        intro w call _ hc hne call' hc'
        rw [show w.run c [] = w from rfl, hc] at hc'
        cases hc'; exact hne
      | cons e evs ih =>
        intro w call hw hc hne call' hc'
        have hs1 := step_spec hw e
        have : ∃ d, (w.step c e).calls[i]? = some d ∧ d.state ≠ .start := by
          cases e with
          | enter s q =>
            refine ⟨call, ?_, hne⟩
            simp only [IdWorld.step]
            rw [List.getElem?_append_left (List.getElem?_eq_some_iff.1 hc).1]
            exact hc
          | run j =>
            by_cases hij : j = i
            · subst hij
              obtain ⟨d, hd, hd2, _⟩ := key w call hw hc
              exact ⟨d, hd, fun h => hd2 h⟩
            · refine ⟨call, ?_, hne⟩
              unfold IdWorld.step
              simp only
              cases hcj : w.calls[j]? with
              | none => exact hc
              | some cj => simp only; rw [List.getElem?_set_ne hij]; exact hc
        obtain ⟨d, hd, hdn⟩ := this
        exact ih (w.step c e) d hs1.1 hd hdn call' hc'
    exact back mid _ c1 hw1 h1 (fun h => h1s h) c2 h2 hs
  obtain ⟨c3, h3, _, h3s⟩ := key _ c2 hw2 h2
  obtain ⟨a, ha⟩ := h3s h2s
  exact ⟨a, by rw [h3]; simp [ha]⟩

/-- Two goroutines race for the same new name; both miss, the second finds what the first one
created. -/
example : ((idWorld0.run asciiEnv [.enter (ascii "Abc") false, .enter (ascii "abc") true, .run 0, .run 1,
    .run 0, .run 1]).calls.map IdCall.state) = [.done 47, .done 47] := by decide +kernel

/-! ### C25 -/

/-- C25: an identifier prints as its name, at once and after any further history. -/
theorem C25_prints_as_name (c : CaseEnv) (before later : List (Bytes × Bool)) (s : Bytes)
    (q : Bool) :
    let r := (internAll c Registry.initial before).2
    (internAll c (internID c r s q).2 later).2.string (internID c r s q).1 =
      (sqlName c.upper c.lower s q).text := by
  intro r
  obtain ⟨id, r1, he, h1, _, hi⟩ := internID_spec (c := c) (regInv_history c before) s q
  rw [he]
  obtain ⟨_, r2, he2, h2, hx, _⟩ := internAll_spec (c := c) later h1
  simp only [he2]
  exact h2.string (hx.idOf _ _ hi)

/-- C25: in particular a quoted name prints as its own first 128 bytes. -/
theorem C25_quoted (c : CaseEnv) (before later : List (Bytes × Bool)) (s : Bytes) :
    let r := (internAll c Registry.initial before).2
    (internAll c (internID c r s true).2 later).2.string (internID c r s true).1 = s.take 128 := by
  have := C25_prints_as_name c before later s true
  simpa [sqlName, SqlName.text] using this

/-- C25: an unquoted ASCII name of at most 128 bytes prints in lower case, or in upper case if
it is a keyword. -/
theorem C25_unquoted_ascii (c : CaseEnv) (hc : AsciiCase c.upper c.lower)
    (before later : List (Bytes × Bool)) (s : Bytes)
    (hs : ∀ b ∈ s, b.toNat < 128) (hl : s.length ≤ 128) :
    let r := (internAll c Registry.initial before).2
    (internAll c (internID c r s false).2 later).2.string (internID c r s false).1 =
      if s.map asciiUpper ∈ (reservedWords ++ openWords).map ascii then s.map asciiUpper
      else s.map asciiLower := by
  have h := C25_prints_as_name c before later s false
  intro r
  refine Eq.trans h ?_
  unfold sqlName
  simp only [Bool.false_eq_true, ↓reduceIte]
  rw [List.take_of_length_le hl, hc.upper s hs, hc.lower s hs]
  cases hf : (reservedWords ++ openWords).find? (fun w => ascii w = s.map asciiUpper) with
  | some w =>
    have h1 := List.find?_some hf
    simp only [decide_eq_true_eq] at h1
    have h2 := List.mem_of_find?_eq_some hf
    rw [if_pos (by rw [← h1]; exact List.mem_map_of_mem h2)]
    exact h1
  | none =>
    rw [if_neg]
    · rfl
    · intro hm
      obtain ⟨w, hw, he⟩ := List.mem_map.1 hm
      have := List.find?_eq_none.1 hf w hw
      simp [he] at this

example : (internID asciiEnv Registry.initial (ascii "Foo_1") false).2.string 47 = ascii "foo_1" := by
  decide +kernel

/-! ### C26 -/

/-- C26: an identifier is reserved exactly when it was written unquoted and its upper-cased form
is a reserved word. -/
theorem C26_reserved (c : CaseEnv) (before : List (Bytes × Bool)) (s : Bytes) (q : Bool) :
    isReserved (internID c (internAll c Registry.initial before).2 s q).1 = true ↔
      q = false ∧ c.upper (s.take 128) ∈ reservedWords.map ascii := by
  obtain ⟨id, r1, he, h1, _, hi⟩ := internID_spec (c := c) (regInv_history c before) s q
  rw [he]
  have : isReserved id = true ↔ id < 0 := by unfold isReserved; split <;> simp_all
  simp only [this, h1.reserved hi]
  unfold sqlName
  cases q with
  | true => simp
  | false =>
    simp only [Bool.false_eq_true, ↓reduceIte, true_and]
    constructor
    · rintro ⟨w, hw, hn⟩
      split at hn
      · next v hv =>
        cases hn
        have := List.find?_some hv
        simp only [decide_eq_true_eq] at this
        rw [← this]
        exact List.mem_map_of_mem hw
      · cases hn
    · intro hm
      obtain ⟨w, hw, he⟩ := List.mem_map.1 hm
      have := (ascii_word_facts w hw).2.2.2
      rw [← he, this]
      exact ⟨w, hw, rfl⟩

/-- C26: a quoted name is never reserved. -/
theorem C26_quoted_usable (c : CaseEnv) (before : List (Bytes × Bool)) (s : Bytes) :
    isReserved (internID c (internAll c Registry.initial before).2 s true).1 = false := by
  have := C26_reserved c before s true
  cases h : isReserved (internID c (internAll c Registry.initial before).2 s true).1 with
  | false => rfl
  | true => exact absurd (this.1 h).1 (by simp)

example : isReserved (internID asciiEnv Registry.initial (ascii "Select") false).1 = true := by
  decide +kernel
example : isReserved (internID asciiEnv Registry.initial (ascii "SELECT") true).1 = false := by
  decide +kernel

/-! ### C27 -/

/-- C27 is false for keywords that are not reserved: TEXT is encoded as the quoted name "TEXT",
which is another identifier. -/
theorem C27_open_keyword_not_kept :
    let (id, r) := internID asciiEnv Registry.initial (ascii "text") false
    (gobDecodeId asciiEnv r (gobEncodeId r id)).1 ≠ .ok id := by decide +kernel

set_option maxRecDepth 4000 in
/-- C27 is false if lower-casing makes a name longer than 128 bytes. -/
theorem C27_long_name_not_kept :
    let c : CaseEnv := ⟨fun s => s, fun s => if s.length < 128 then s else 0#8 :: s⟩
    let (id, r) := internID c Registry.initial (List.replicate 128 65#8) false
    (gobDecodeId c r (gobEncodeId r id)).1 ≠ .ok id := by decide +kernel

/-- C27 (partial): the identifier of any name survives encoding and decoding, at any later time,
provided it is not an open keyword and prints in at most 128 bytes. Missing: open keywords and
longer names, for which it is false. -/
theorem C27_gob_roundtrip_partial (c : CaseEnv) (hc : AsciiCase c.upper c.lower)
    (before later : List (Bytes × Bool)) (s : Bytes) (q : Bool)
    (hopen : ∀ w ∈ openWords, sqlName c.upper c.lower s q ≠ .keyword w)
    (hlen : (sqlName c.upper c.lower s q).text.length ≤ 128) :
    let r := (internAll c Registry.initial before).2
    let id := (internID c r s q).1
    let r' := (internAll c (internID c r s q).2 later).2
    gobDecodeId c r' (gobEncodeId r' id) = (.ok id, r') := by
  intro r
  obtain ⟨id, r1, he, h1, _, hi⟩ := internID_spec (c := c) (regInv_history c before) s q
  obtain ⟨_, r2, he2, h2, hx, _⟩ := internAll_spec (c := c) later h1
  simp only [r, he, he2]
  have hi2 := hx.idOf _ _ hi
  have hs := h2.string hi2
  have hr := h2.reserved hi2
  unfold gobEncodeId
  cases hn : sqlName c.upper c.lower s q with
  | keyword w =>
    rw [hn] at hi2 hr hs
    have hw : w ∈ reservedWords := by
      have : w ∈ reservedWords ++ openWords := by
        unfold sqlName at hn
        cases q with
        | true => simp at hn
        | false =>
          simp only [Bool.false_eq_true, ↓reduceIte] at hn
          split at hn
          · next v hv => cases hn; exact List.mem_of_find?_eq_some hv
          · cases hn
      rcases List.mem_append.1 this with h | h
      · exact h
      · exact absurd hn (hopen w h)
    have hneg : id < 0 := hr.2 ⟨w, hw, rfl⟩
    have : isReserved id = true := by unfold isReserved; rw [if_pos hneg]
    rw [if_pos this, hs]
    simp only [SqlName.text]
    have hf := ascii_word_facts w hw
    have hname : sqlName c.upper c.lower (ascii w) false = .keyword w := by
      unfold sqlName
      simp only [Bool.false_eq_true, ↓reduceIte]
      rw [hf.2.1, hc.upper _ hf.2.2.1, hf.1, hf.2.2.2]
    have hh : internID c r2 (ascii w) false = (id, r2) := internID_hit (by rw [hname]; exact hi2)
    unfold gobDecodeId
    simp only [hh]
    rfl
  | name t =>
    rw [hn] at hi2 hr hs hlen
    have hnn : ¬ id < 0 := by
      intro h; obtain ⟨w, _, hw⟩ := hr.1 h; cases hw
    have : isReserved id = false := by unfold isReserved; rw [if_neg hnn]
    rw [this, hs]
    simp only [SqlName.text] at hlen ⊢
    have hname : sqlName c.upper c.lower t true = .name t := by
      unfold sqlName
      simp only [↓reduceIte]
      rw [List.take_of_length_le hlen]
    have hh : internID c r2 t true = (id, r2) := internID_hit (by rw [hname]; exact hi2)
    unfold gobDecodeId
    simp only [Bool.false_eq_true, ↓reduceIte, hh]
    rfl

/-- C27: for an open keyword the decoded identifier is the one of the quoted upper-case name. -/
theorem C27_open_keyword_becomes_quoted (c : CaseEnv) (before : List (Bytes × Bool)) (s : Bytes)
    (w : String) (hw : w ∈ openWords) (hn : sqlName c.upper c.lower s false = .keyword w) :
    let r := (internAll c Registry.initial before).2
    let (id, r') := internID c r s false
    gobDecodeId c r' (gobEncodeId r' id) =
      (.ok (internID c r' (ascii w) true).1, (internID c r' (ascii w) true).2) := by
  intro r
  obtain ⟨id, r1, he, h1, _, hi⟩ := internID_spec (c := c) (regInv_history c before) s false
  simp only [r, he]
  rw [hn] at hi
  have hs := h1.string hi
  have hr := h1.reserved hi
  have hnn : ¬ id < 0 := by
    intro h
    obtain ⟨v, hv, e⟩ := hr.1 h
    cases e
    have : ∀ w ∈ openWords, w ∉ reservedWords := by decide
    exact this w hw hv
  have : isReserved id = false := by unfold isReserved; rw [if_neg hnn]
  unfold gobEncodeId
  rw [this, hs]
  unfold gobDecodeId
  simp only [SqlName.text]
  rfl

example : (∀ w ∈ openWords, sqlName asciiEnv.upper asciiEnv.lower (ascii "My_Table") false ≠ .keyword w)
    ∧ (sqlName asciiEnv.upper asciiEnv.lower (ascii "My_Table") false).text.length ≤ 128 := by
  decide +kernel
example : (∀ w ∈ openWords, sqlName asciiEnv.upper asciiEnv.lower (ascii "order") false ≠ .keyword w) ∧
    sqlName asciiEnv.upper asciiEnv.lower (ascii "order") false = .keyword "ORDER" := by
  decide +kernel

end Maho
