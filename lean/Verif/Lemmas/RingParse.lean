import Verif.Model.RingParse
import Verif.Lemmas.Lookback
/-
Helper lemmas for C64: the parser with the ring of tokens does what the parser on a list does.
-/
namespace Maho

/-- The ring stands before token `p`, and what has been put back is no error of the scanner. -/
structure At (ts : List Token) (r : Ring) (p : Nat) : Prop where
  holds : Holds (RP.stream ts) r p
  clean : ∀ i, p ≤ i → i < r.scanned → RP.stream ts i ≠ .error false

/-- The results are the same, and the ring stands where the list begins. -/
def Matches {α : Type} (ts : List Token) (Post : α → Nat → Nat → Prop) : PRes α → RRes α → Prop
  | .ok a rest, .ok b r => a = b ∧ ∃ p, At ts r p ∧ rest = ts.drop p ∧ Post a p r.unscanned
  | .fail e rest, .fail e' r => e = e' ∧ ∃ p, At ts r p ∧ rest = ts.drop p
  | .panic, .panic => True
  | .stuck, .stuck => True
  | _, _ => False

/-- `g` does with the ring what `m` does with the list, from the places where `Pre` holds. -/
def Sim {α : Type} (ts : List Token) (Pre : Nat → Nat → Prop) (m : P α) (g : RP α)
    (Post : α → Nat → Nat → Prop) : Prop :=
  ∀ r p, At ts r p → Pre p r.unscanned → Matches ts Post (m (ts.drop p)) (g ts r)

variable {ts : List Token} {α β : Type} {Pre : Nat → Nat → Prop}

theorem Sim.bind {m : P α} {g : RP α} {f : α → P β} {h : α → RP β}
    {Mid : α → Nat → Nat → Prop} {Post : β → Nat → Nat → Prop} (h1 : Sim ts Pre m g Mid)
    (h2 : ∀ a, Sim ts (Mid a) (f a) (h a) Post) : Sim ts Pre (m >>= f) (g >>= h) Post := by
  intro r p ha hp
  have := h1 r p ha hp
  show Matches ts Post (P.bind m f _) (RP.bind g h ts r)
  unfold P.bind RP.bind
  revert this
  generalize m (ts.drop p) = x
  generalize g ts r = y
  intro hm
  cases x <;> cases y <;> simp only [Matches] at hm ⊢
  case ok.ok a rest b r =>
    obtain ⟨rfl, p', h3, rfl, h4⟩ := hm
    exact h2 a r p' h3 h4
  case fail.fail => exact hm

theorem Sim.pure {a : α} {Post : α → Nat → Nat → Prop} (h : ∀ p u, Pre p u → Post a p u) :
    Sim ts Pre (pure a) (pure a) Post := by
  intro r p ha hp
  exact ⟨rfl, p, ha, rfl, h _ _ hp⟩

theorem Sim.mono {m : P α} {g : RP α} {Pre' : Nat → Nat → Prop} {Post Post' : α → Nat → Nat → Prop}
    (h : Sim ts Pre m g Post) (h1 : ∀ p u, u ≤ 3 → Pre' p u → Pre p u)
    (h2 : ∀ a p u, u ≤ 3 → Post a p u → Post' a p u) : Sim ts Pre' m g Post' := by
  intro r p ha hp
  have := h r p ha (h1 _ _ ha.holds.behind hp)
  revert this
  generalize m (ts.drop p) = x
  generalize g ts r = y
  intro hm
  cases x <;> cases y <;> simp only [Matches] at hm ⊢
  case ok.ok a rest b r =>
    obtain ⟨rfl, p', h3, rfl, h4⟩ := hm
    exact ⟨rfl, p', h3, rfl, h2 _ _ _ h3.holds.behind h4⟩
  case fail.fail => exact hm

theorem Sim.ite {c : Prop} [Decidable c] {m m' : P α} {g g' : RP α}
    {Post : α → Nat → Nat → Prop} (h1 : c → Sim ts Pre m g Post) (h2 : ¬c → Sim ts Pre m' g' Post) :
    Sim ts Pre (if c then m else m') (if c then g else g') Post := by
  split
  · exact h1 ‹_›
  · exact h2 ‹_›

theorem Sim.crash {Post : α → Nat → Nat → Prop} : Sim ts Pre P.crash RP.crash Post :=
  fun _ _ _ _ => trivial

theorem Sim.stuck {Post : α → Nat → Nat → Prop} : Sim ts Pre P.stuck RP.stuck Post :=
  fun _ _ _ _ => trivial

theorem drop_stream (p : Nat) : (p < ts.length ∧ ts.drop p = RP.stream ts p :: ts.drop (p + 1)) ∨
    (ts.length ≤ p ∧ ts.drop p = [] ∧ RP.stream ts p = .eof) := by
  rcases Nat.lt_or_ge p ts.length with h | h
  · left
    refine ⟨h, ?_⟩
    rw [List.drop_eq_getElem_cons h]
    simp [RP.stream, h]
  · right
    exact ⟨h, List.drop_eq_nil_of_le h, by simp [RP.stream, h]⟩

theorem stream_eof (h : Token.eof ∉ ts) (p : Nat) : RP.stream ts p = .eof ↔ ts.length ≤ p := by
  constructor
  · intro e
    rcases Nat.lt_or_ge p ts.length with hp | hp
    · exfalso
      apply h
      rw [← e]
      simp [RP.stream, hp]
    · exact hp
  · intro hp
    simp [RP.stream, hp]

/-- The token before the ring. -/
def before (ts : List Token) (p : Nat) : Token := RP.stream ts (p - 1)

theorem At.current {r : Ring} {p : Nat} (h : At ts r p) (hp : 0 < p) (hu : r.unscanned ≤ 2) :
    r.lookBack r.current = before ts p := by
  obtain ⟨h1, h2, h3, h4⟩ := h.holds
  have := h4 (p - 1) (by omega) (by omega)
  rw [h3, show p % 3 = (p - 1 + 1) % 3 by rw [show p - 1 + 1 = p by omega], this]
  rfl

theorem Sim.next : Sim ts Pre P.next RP.next (fun t p u =>
    0 < p ∧ before ts p = t ∧ t ≠ .error false ∧ ∃ u0 ≤ 3, Pre (p - 1) u0 ∧ u = u0 - 1) := by
  intro r p ha hp
  obtain ⟨e1, e2, e3⟩ := ha.holds.scan
  have hu : (r.scan (RP.stream ts)).2.unscanned = r.unscanned - 1 := by
    unfold Ring.scan
    split
    · rfl
    · simp only; omega
  have hat : At ts (r.scan (RP.stream ts)).2 (p + 1) :=
    ⟨e2, fun i h1 h2 => ha.clean i (by omega) (by omega)⟩
  unfold RP.next
  simp only [e1]
  have hd := drop_stream (ts := ts) p
  by_cases hc : r.unscanned = 0 ∧ RP.stream ts p = .error false
  · rw [if_pos hc]
    rcases hd with ⟨_, hd⟩ | ⟨_, _, hd⟩
    · rw [hd, hc.2]
      refine ⟨?_, p + 1, hat, rfl⟩
      rw [hat.current (by omega) (by omega)]
      show false = (RP.stream ts (p + 1 - 1) == _)
      rw [show p + 1 - 1 = p by omega, hc.2]
      rfl
    · rw [hc.2] at hd
      exact absurd hd (by simp)
  · rw [if_neg hc]
    have hne : RP.stream ts p ≠ .error false := by
      intro e
      by_cases h0 : r.unscanned = 0
      · exact hc ⟨h0, e⟩
      · exact ha.clean p (Nat.le_refl _) (by have := ha.holds.place; omega) e
    have key : P.next (ts.drop p) = .ok (RP.stream ts p) (ts.drop (p + 1)) := by
      rcases hd with ⟨_, hd⟩ | ⟨hl, hd, he⟩
      · rw [hd]
        revert hne
        generalize RP.stream ts p = t
        intro hne
        unfold P.next
        split
        · rename_i h; cases h
        · rename_i h; cases h; exact absurd rfl hne
        · rename_i h; cases h; rfl
      · rw [hd, he, List.drop_eq_nil_of_le (by omega)]
        rfl
    rw [key]
    refine ⟨rfl, p + 1, hat, rfl, by omega, rfl, hne, r.unscanned, ha.holds.behind, hp, hu⟩

theorem Sim.unscan (hts : Token.eof ∉ ts) {t : Token} {Post : Unit → Nat → Nat → Prop}
    (h : ∀ p u, u ≤ 3 → Pre p u → 0 < p ∧ before ts p = t ∧ t ≠ .error false ∧ u ≤ 2 ∧
      Post () (p - 1) (u + 1)) : Sim ts Pre (P.unscan t) RP.unscan Post := by
  intro r p ha hp
  obtain ⟨h0, h1, h2, h3, h4⟩ := h p _ ha.holds.behind hp
  obtain ⟨r2, e1, e2, e3⟩ := ha.holds.unscan h0 (by have := ha.holds.place; omega)
  unfold P.unscan RP.unscan
  rw [e1]
  have hu : r2.unscanned = r.unscanned + 1 := by
    have := e2.place
    have := ha.holds.place
    omega
  refine ⟨rfl, p - 1, ⟨e2, ?_⟩, ?_, by rw [hu]; exact h4⟩
  · intro i hi1 hi2
    by_cases e : i = p - 1
    · subst e
      unfold before at h1
      rw [h1]
      exact h2
    · exact ha.clean i (by omega) (by omega)
  · unfold before at h1
    have hd := drop_stream (ts := ts) (p - 1)
    rw [show p - 1 + 1 = p by omega, h1] at hd
    have he := stream_eof hts (p - 1)
    rw [h1] at he
    rcases hd with ⟨hl, hd⟩ | ⟨hl, hd, h5⟩
    · rw [if_neg (by rw [he]; omega), hd]
    · rw [if_pos h5, hd, List.drop_eq_nil_of_le (by omega)]

theorem Sim.errorAt {t : Token} {Post : α → Nat → Nat → Prop}
    (h : ∀ p u, u ≤ 3 → Pre p u → 0 < p ∧ before ts p = t ∧ u ≤ 2) :
    Sim ts Pre (P.errorAt t) RP.error Post := by
  intro r p ha hp
  obtain ⟨h0, h1, h2⟩ := h p _ ha.holds.behind hp
  refine ⟨?_, p, ha, rfl⟩
  rw [ha.current h0 h2, h1]

theorem Sim.errorGot {t : Token} {Post : α → Nat → Nat → Prop}
    (h : ∀ p u, u ≤ 3 → Pre p u → 0 < p ∧ before ts p = t ∧ u ≤ 2) :
    Sim ts Pre (P.errorGot t) RP.errorGot Post := by
  intro r p ha hp
  obtain ⟨h0, h1, h2⟩ := h p _ ha.holds.behind hp
  have e : (RP.errorGot : RP α) ts r =
      (if r.lookBack r.current = .error true then RP.crash else RP.error : RP α) ts r := rfl
  rw [e, ha.current h0 h2, h1]
  unfold P.errorGot
  split
  · trivial
  · exact Sim.errorAt h r p ha hp

theorem Sim.error {Post : α → Nat → Nat → Prop}
    (h : ∀ p u, u ≤ 3 → Pre p u → 0 < p ∧ before ts p ≠ .endOfStatement ∧ u ≤ 2) :
    Sim ts Pre P.error RP.error Post := by
  intro r p ha hp
  obtain ⟨h0, h1, h2⟩ := h p _ ha.holds.behind hp
  refine ⟨?_, p, ha, rfl⟩
  rw [ha.current h0 h2]
  simpa using h1

/-- Reading the identifier of the current token again. -/
theorem Sim.currentId {m : P β} {g : Identifier → RP β} {id : Identifier}
    {Post : β → Nat → Nat → Prop}
    (h : ∀ p u, u ≤ 3 → Pre p u → 0 < p ∧ (before ts p = .identifier id ∨ before ts p = .reserved id) ∧
      u ≤ 2) (h2 : Sim ts Pre m (g id) Post) : Sim ts Pre m (RP.currentId >>= g) Post := by
  intro r p ha hp
  obtain ⟨h0, h1, h3⟩ := h p _ ha.holds.behind hp
  have e : (RP.currentId >>= g) ts r = g id ts r := by
    have hi : RP.currentId ts r = .ok id r := by
      have e : RP.currentId ts r = (match r.lookBack r.current with
        | .identifier id => Pure.pure id
        | .reserved id => Pure.pure id
        | _ => Pure.pure 0 : RP Identifier) ts r := rfl
      rw [e, ha.current h0 h3]
      rcases h1 with h1 | h1 <;> rw [h1] <;> rfl
    show RP.bind RP.currentId g ts r = _
    unfold RP.bind
    rw [hi]
  rw [e]
  exact h2 r p ha hp

/-- Where a method can begin and end: something of the statement has been read, and two more tokens
can be put back. -/
def Std (ts : List Token) (p u : Nat) : Prop := 0 < p ∧ before ts p ≠ .endOfStatement ∧ u ≤ 2

/-- From and to such a place. -/
def Sim2 (ts : List Token) (m : P α) (g : RP α) : Prop := Sim ts (Std ts) m g (fun _ => Std ts)

theorem Sim2.bind {m : P α} {g : RP α} {f : α → P β} {h : α → RP β} (h1 : Sim2 ts m g)
    (h2 : ∀ a, Sim2 ts (f a) (h a)) : Sim2 ts (m >>= f) (g >>= h) := Sim.bind h1 h2

theorem Sim2.map {m : P α} {g : RP α} {f : α → β} (h1 : Sim2 ts m g) :
    Sim2 ts (f <$> m) (f <$> g) := Sim.bind h1 (fun _ => Sim.pure fun _ _ h => h)

theorem Sim2.pure {a : α} : Sim2 ts (Pure.pure a) (Pure.pure a) := Sim.pure fun _ _ h => h

theorem Sim2.ite {c : Prop} [Decidable c] {m m' : P α} {g g' : RP α} (h1 : Sim2 ts m g)
    (h2 : Sim2 ts m' g') : Sim2 ts (if c then m else m') (if c then g else g') :=
  Sim.ite (fun _ => h1) (fun _ => h2)

theorem Sim2.error : Sim2 ts (P.error : P α) RP.error := Sim.error fun _ _ _ h => h

theorem Sim2.crash : Sim2 ts (P.crash : P α) RP.crash := Sim.crash

theorem Sim2.stuck : Sim2 ts (P.stuck : P α) RP.stuck := Sim.stuck

/-- After a token has been read. -/
def Got (ts : List Token) (t : Token) (p u : Nat) : Prop :=
  0 < p ∧ before ts p = t ∧ t ≠ .error false ∧ u ≤ 1 ∧ 0 < p - 1 ∧
    before ts (p - 1) ≠ .endOfStatement

theorem Sim2.next {f : Token → P β} {h : Token → RP β}
    {Post : β → Nat → Nat → Prop} (h2 : ∀ t, Sim ts (Got ts t) (f t) (h t) Post) :
    Sim ts (Std ts) (P.next >>= f) (RP.next >>= h) Post := by
  refine Sim.bind Sim.next fun t => (h2 t).mono ?_ (fun _ _ _ _ h => h)
  rintro p u hu ⟨h3, h4, h5, u0, h6, ⟨h7, h8, h9⟩, rfl⟩
  exact ⟨h3, h4, h5, by omega, h7, h8⟩

theorem Got.std {t : Token} {p u : Nat} (h : Got ts t p u) (ht : t ≠ .endOfStatement) : Std ts p u :=
  ⟨h.1, by rw [h.2.1]; exact ht, by have := h.2.2.2.1; omega⟩

theorem Sim.got {t : Token} {m : P α} {g : RP α} (ht : t ≠ .endOfStatement) (h : Sim2 ts m g) :
    Sim ts (Got ts t) m g (fun _ => Std ts) :=
  Sim.mono h (fun _ _ _ h => h.std ht) (fun _ _ _ _ h => h)

theorem Sim.back (hts : Token.eof ∉ ts) {t : Token} {m : P α} {g : RP α} (h : Sim2 ts m g) :
    Sim ts (Got ts t) (P.unscan t >>= fun _ => m) (RP.unscan >>= fun _ => g) (fun _ => Std ts) :=
  Sim.bind (Sim.unscan hts (fun p u _ hg => ⟨hg.1, hg.2.1, hg.2.2.1, by have := hg.2.2.2.1; omega,
    hg.2.2.2.2.1, hg.2.2.2.2.2, by have := hg.2.2.2.1; omega⟩)) (fun _ => h)

theorem Sim.gotError {t : Token} : Sim ts (Got ts t) (P.errorGot t : P α) RP.errorGot
    (fun _ => Std ts) :=
  Sim.errorGot fun _ _ _ h => ⟨h.1, h.2.1, by have := h.2.2.2.1; omega⟩

theorem Sim.gotErrorAt {t : Token} : Sim ts (Got ts t) (P.errorAt t : P α) RP.error
    (fun _ => Std ts) :=
  Sim.errorAt fun _ _ _ h => ⟨h.1, h.2.1, by have := h.2.2.2.1; omega⟩

/-! ### The methods for one token -/

theorem sim_expectReserved (ids : List Identifier) :
    Sim2 ts (P.expectReserved ids) (RP.expectReserved ids) := by
  refine Sim2.next fun t => ?_
  cases t <;> try exact Sim.gotError
  exact Sim.ite (fun _ => Sim.got (by simp) Sim2.pure) (fun _ => Sim.gotError)

theorem sim_expectIdentifier : Sim2 ts P.expectIdentifier RP.expectIdentifier := by
  refine Sim2.next fun t => ?_
  cases t <;> try exact Sim.gotError
  exact Sim.got (by simp) Sim2.pure

theorem sim_expectInteger (a b : Int) : Sim2 ts (P.expectInteger a b) (RP.expectInteger a b) := by
  refine Sim2.next fun t => ?_
  cases t <;> try exact Sim.gotError
  exact Sim.ite (fun _ => Sim.gotError) (fun _ => Sim.got (by simp) Sim2.pure)

section
variable (hts : Token.eof ∉ ts)
include hts

theorem sim_maybeIdentifier (id : Identifier) :
    Sim2 ts (P.maybeIdentifier id) (RP.maybeIdentifier id) := by
  refine Sim2.next fun t => Sim.ite (fun h => ?_) (fun _ => Sim.back hts Sim2.pure)
  exact Sim.got (by rw [h]; simp) Sim2.pure

omit hts in
theorem sim_expectTokens (l : List Token) (hl : Token.endOfStatement ∉ l) :
    Sim2 ts (P.expectTokens l) (RP.expectTokens l) := by
  refine Sim2.next fun t => Sim.ite (fun h => ?_) (fun _ => Sim.gotError)
  exact Sim.got (by rintro rfl; exact hl h) Sim2.pure

theorem sim_maybeToken (t : Token) (ht : t ≠ .endOfStatement) :
    Sim2 ts (P.maybeToken t) (RP.maybeToken t) := by
  refine Sim2.next fun t => Sim.ite (fun h => ?_) (fun _ => Sim.back hts Sim2.pure)
  exact Sim.got (by rw [h]; exact ht) Sim2.pure

/-- `optionalReserved` with the word. -/
def peekReserved (ids : List Identifier) : RP (Option Identifier) := do
  let t ← RP.next
  match t with
  | .reserved id => if id ∈ ids then pure (some id) else do RP.unscan; pure none
  | _ => do RP.unscan; pure none

omit hts in
theorem next_current {ts : List Token} {r r2 : Ring} {t : Token} (h : RP.next ts r = .ok t r2) :
    r2.lookBack r2.current = t := by
  unfold RP.next at h
  simp only at h
  split at h
  · simp [RP.error] at h
  · injection h with h1 h2
    rw [← h1, ← h2]
    unfold Ring.scan
    split <;> simp

omit hts in
theorem currentId_eq (ts : List Token) (r : Ring) : RP.currentId ts r =
    (match r.lookBack r.current with
      | .identifier id => Pure.pure id
      | .reserved id => Pure.pure id
      | _ => Pure.pure 0 : RP Identifier) ts r := rfl

omit hts in
theorem optionalReserved_eq (ids : List Identifier) : RP.optionalReserved ids = (do
    let id ← peekReserved ids
    pure id.isSome) := by
  funext ts r
  show RP.bind RP.next _ ts r = RP.bind (RP.bind RP.next _) _ ts r
  unfold RP.bind
  cases e : RP.next ts r <;> try rfl
  rename_i t r2
  by_cases h : ∃ id ∈ ids, t = .reserved id
  · obtain ⟨id, h1, rfl⟩ := h
    simp [h1, pure]
  · cases t <;> first
      | (simp only [bind, RP.bind, pure]; cases RP.unscan ts r2 <;> rfl)
      | (rename_i id
         have : id ∉ ids := fun h1 => h ⟨id, h1, rfl⟩
         simp only [if_neg this]
         simp only [bind, RP.bind, pure]
         cases RP.unscan ts r2 <;> rfl)

omit hts in
theorem optionalReservedId_eq (ids : List Identifier) :
    RP.optionalReservedId ids = peekReserved ids := by
  funext ts r
  show RP.bind (RP.bind RP.next _) _ ts r = RP.bind RP.next _ ts r
  unfold RP.bind
  cases e : RP.next ts r <;> try rfl
  rename_i t r2
  have := next_current e
  by_cases h : ∃ id ∈ ids, t = .reserved id
  · obtain ⟨id, h1, rfl⟩ := h
    have hi : RP.currentId ts r2 = .ok id r2 := by rw [currentId_eq, this]; rfl
    have e : (some <$> RP.currentId : RP (Option Identifier)) ts r2 = .ok (some id) r2 := by
      show RP.bind RP.currentId _ ts r2 = _
      unfold RP.bind
      rw [hi]
      rfl
    simpa [h1, pure] using e
  · cases t <;> first
      | (simp only [bind, RP.bind, pure]; cases RP.unscan ts r2 <;> rfl)
      | (rename_i id
         have : id ∉ ids := fun h1 => h ⟨id, h1, rfl⟩
         simp only [if_neg this]
         simp only [bind, RP.bind, pure]
         cases RP.unscan ts r2 <;> rfl)

theorem sim_peek {Q : Nat → Prop} {k : Nat} (hk : k ≤ 3) (ids : List Identifier) :
    Sim ts (fun p u => Q p ∧ u ≤ k) (P.optionalReservedId ids) (RP.optionalReservedId ids)
      (fun o p u => (o = none ∧ Q p ∧ u ≤ max k 1) ∨
        ∃ id ∈ ids, o = some id ∧ 0 < p ∧ Q (p - 1) ∧ before ts p = .reserved id ∧ u ≤ k - 1) := by
  rw [optionalReservedId_eq]
  refine Sim.bind Sim.next fun t => ?_
  have hb : Sim ts (fun p u => 0 < p ∧ before ts p = t ∧ t ≠ .error false ∧
      ∃ u0 ≤ 3, (Q (p - 1) ∧ u0 ≤ k) ∧ u = u0 - 1)
      (do P.unscan t; pure none) (do RP.unscan; pure none)
      (fun o p u => (o = none ∧ Q p ∧ u ≤ max k 1) ∨
        ∃ id ∈ ids, o = some id ∧ 0 < p ∧ Q (p - 1) ∧ before ts p = .reserved id ∧ u ≤ k - 1) := by
    refine Sim.bind (Mid := fun _ p u => Q p ∧ u ≤ max k 1) (Sim.unscan hts ?_)
      fun _ => Sim.pure fun p u h => Or.inl ⟨rfl, h⟩
    rintro p u hu ⟨h1, h2, h3, u0, h4, ⟨h5, h6⟩, rfl⟩
    exact ⟨h1, h2, h3, by omega, h5, by omega⟩
  cases t <;> try exact hb
  rename_i id
  refine Sim.ite (fun hi => Sim.pure ?_) (fun _ => hb)
  rintro p u ⟨h1, h2, h3, u0, h4, ⟨h5, h6⟩, rfl⟩
  exact Or.inr ⟨id, hi, rfl, h1, h5, h2, by omega⟩

theorem sim_peekToken {Q : Nat → Prop} {k : Nat} (hk : k ≤ 3) (t : Token) :
    Sim ts (fun p u => Q p ∧ u ≤ k) (P.maybeToken t) (RP.maybeToken t)
      (fun b p u => (b = false ∧ Q p ∧ u ≤ max k 1) ∨
        (b = true ∧ 0 < p ∧ Q (p - 1) ∧ before ts p = t ∧ t ≠ .error false ∧ u ≤ k - 1)) := by
  refine Sim.bind Sim.next fun t2 => Sim.ite (fun h => ?_) fun _ => ?_
  · subst h
    refine Sim.pure ?_
    rintro p u ⟨h1, h2, h3, u0, h4, ⟨h5, h6⟩, rfl⟩
    exact Or.inr ⟨rfl, h1, h5, h2, h3, by omega⟩
  · refine Sim.bind (Mid := fun _ p u => Q p ∧ u ≤ max k 1) (Sim.unscan hts ?_)
      fun _ => Sim.pure fun p u h => Or.inl ⟨rfl, h⟩
    rintro p u hu ⟨h1, h2, h3, u0, h4, ⟨h5, h6⟩, rfl⟩
    exact ⟨h1, h2, h3, by omega, h5, by omega⟩

theorem sim_optionalReservedId (ids : List Identifier) :
    Sim2 ts (P.optionalReservedId ids) (RP.optionalReservedId ids) := by
  refine (sim_peek hts (Q := fun p => 0 < p ∧ before ts p ≠ .endOfStatement) (k := 2) (by omega)
    ids).mono (fun p u _ h => ⟨⟨h.1, h.2.1⟩, h.2.2⟩) ?_
  rintro a p u hu (⟨_, h, h2⟩ | ⟨id, _, _, h1, _, h2, h3⟩)
  · exact ⟨h.1, h.2, by omega⟩
  · exact ⟨h1, by rw [h2]; simp, by omega⟩

theorem sim_peekOptional {Q : Nat → Prop} {k : Nat} (hk : k ≤ 3) (ids : List Identifier) :
    Sim ts (fun p u => Q p ∧ u ≤ k) (P.optionalReserved ids) (RP.optionalReserved ids)
      (fun b p u => (b = false ∧ Q p ∧ u ≤ max k 1) ∨
        (b = true ∧ ∃ id ∈ ids, 0 < p ∧ Q (p - 1) ∧ before ts p = .reserved id ∧ u ≤ k - 1)) := by
  rw [optionalReserved_eq, ← optionalReservedId_eq]
  refine Sim.bind (sim_peek hts hk ids) fun o => Sim.pure ?_
  rintro p u (⟨rfl, h⟩ | ⟨id, hi, rfl, h⟩)
  · exact Or.inl ⟨rfl, h⟩
  · exact Or.inr ⟨rfl, id, hi, h⟩

theorem sim_optionalReserved (ids : List Identifier) :
    Sim2 ts (P.optionalReserved ids) (RP.optionalReserved ids) := by
  rw [optionalReserved_eq, ← optionalReservedId_eq]
  exact Sim2.bind (sim_optionalReservedId hts ids) fun _ => Sim2.pure

/-! ### Words one after the other -/

omit hts in
theorem Sim.congr {m m' : P α} {g : RP α} {Post : α → Nat → Nat → Prop}
    (h : Sim ts Pre m g Post) (e : ∀ p, m' (ts.drop p) = m (ts.drop p)) : Sim ts Pre m' g Post := by
  intro r p ha hp
  rw [e]
  exact h r p ha hp

/-- `optionalReserved` for one word after the other. -/
def firstWord : List Identifier → P (Option Identifier)
  | [] => pure none
  | id :: ids => do
    let found ← P.optionalReserved [id]
    if found then pure (some id) else firstWord ids

omit hts in
theorem optionalReservedId_cons {t : Token} {l : List Token} (h1 : t ≠ .eof) (h2 : t ≠ .error false)
    (ids : List Identifier) : P.optionalReservedId ids (t :: l) =
      (match t with
        | .reserved id => if id ∈ ids then .ok (some id) l else .ok none (t :: l)
        | _ => .ok none (t :: l)) := by
  have e : P.next (t :: l) = .ok t l := by
    unfold P.next
    split
    · rename_i h; cases h
    · rename_i h; cases h; exact absurd rfl h2
    · rename_i h; cases h; rfl
  show P.bind P.next _ _ = _
  unfold P.bind
  rw [e]
  cases t <;> first
    | exact absurd rfl h1
    | (simp only [bind, P.bind, P.unscan]; rfl)
    | skip
  rename_i id
  by_cases h : id ∈ ids
  · simp only [if_pos h]; rfl
  · simp only [if_neg h]; rfl

omit hts in
theorem optionalReserved_cons {t : Token} {l : List Token} (h1 : t ≠ .eof) (h2 : t ≠ .error false)
    (id : Identifier) : P.optionalReserved [id] (t :: l) =
      if t = .reserved id then .ok true l else .ok false (t :: l) := by
  show P.bind (P.optionalReservedId [id]) _ _ = _
  unfold P.bind
  rw [optionalReservedId_cons h1 h2]
  cases t <;> try rfl
  rename_i id2
  by_cases h : id2 = id
  · simp [h]; rfl
  · simp [h]; rfl

omit hts in
theorem firstWord_cons {t : Token} {l : List Token} (h1 : t ≠ .eof) (h2 : t ≠ .error false) :
    ∀ ids, firstWord ids (t :: l) = P.optionalReservedId ids (t :: l)
  | [] => by
    rw [optionalReservedId_cons h1 h2]
    cases t <;> rfl
  | id :: ids => by
    have ih := firstWord_cons (l := l) h1 h2 ids
    rw [optionalReservedId_cons h1 h2] at ih ⊢
    show P.bind (P.optionalReserved [id]) _ _ = _
    unfold P.bind
    rw [optionalReserved_cons h1 h2]
    by_cases h : t = .reserved id
    · subst h
      simp
      rfl
    · rw [if_neg h]
      simp only
      rw [if_neg (by simp), ih]
      cases t <;> try rfl
      rename_i id2
      have : id2 ≠ id := fun e => h (by rw [e])
      simp [this]

omit hts in
theorem firstWord_nil : ∀ ids, firstWord ids [] = P.optionalReservedId ids []
  | [] => rfl
  | _ :: ids => firstWord_nil ids

omit hts in
theorem firstWord_eq {l : List Token} (h : Token.eof ∉ l) {ids : List Identifier} (hi : ids ≠ []) :
    P.optionalReservedId ids l = firstWord ids l := by
  cases l with
  | nil => exact (firstWord_nil ids).symm
  | cons t l =>
    by_cases h2 : t = .error false
    · subst h2
      cases ids with
      | nil => exact absurd rfl hi
      | cons id ids => rfl
    · exact (firstWord_cons (by rintro rfl; exact h List.mem_cons_self) h2 ids).symm

theorem sim_firstWord : ∀ ids, Sim2 ts (firstWord ids) (RP.firstReserved ids)
  | [] => Sim2.pure
  | id :: ids => Sim2.bind (sim_optionalReserved hts [id]) fun _ =>
      Sim2.ite Sim2.pure (sim_firstWord ids)

theorem sim_firstReserved (ids : List Identifier) (hi : ids ≠ []) :
    Sim2 ts (P.optionalReservedId ids) (RP.firstReserved ids) :=
  Sim.congr (sim_firstWord hts ids) fun _ => firstWord_eq (fun h => hts (List.mem_of_mem_drop h)) hi

/-! ### Loops -/

omit hts in
theorem left_eq {r : Ring} {p : Nat} (h : At ts r p) : RP.left ts r = (ts.drop p).length := by
  have := h.holds.place
  simp only [RP.left, List.length_drop]
  omega

omit hts in
theorem sim_loopFuel {σ : Type} {step : σ → P (σ × Bool)} {step2 : σ → RP (σ × Bool)}
    (h : ∀ s, Sim2 ts (step s) (step2 s)) :
    ∀ n s, Sim2 ts (P.loopFuel step n s) (RP.loopFuel step2 n s)
  | 0, _ => Sim2.stuck
  | n + 1, s => Sim2.bind (h s) fun ⟨s, _⟩ => Sim2.ite (sim_loopFuel h n s) Sim2.pure

omit hts in
theorem sim_loop {σ : Type} {step : σ → P (σ × Bool)} {step2 : σ → RP (σ × Bool)}
    (h : ∀ s, Sim2 ts (step s) (step2 s)) (s : σ) : Sim2 ts (P.loop step s) (RP.loop step2 s) := by
  intro r p ha hp
  unfold P.loop RP.loop
  rw [left_eq ha]
  exact sim_loopFuel h _ s r p ha hp

omit hts in
theorem sim_closed {σ : Type} {step : σ → P σ} {step2 : σ → RP σ}
    (h : ∀ s, Sim2 ts (step s) (step2 s)) (s : σ) : Sim2 ts (P.closed step s) (RP.closed step2 s) :=
  sim_loop (fun s => Sim2.bind (h s) fun _ => Sim2.bind (sim_expectTokens _ (by decide))
    fun _ => Sim2.pure) s

theorem sim_separated {σ : Type} {step : σ → P σ} {step2 : σ → RP σ}
    (h : ∀ s, Sim2 ts (step s) (step2 s)) (s : σ) :
    Sim2 ts (P.separated step s) (RP.separated step2 s) :=
  sim_loop (fun s => Sim2.bind (h s) fun _ => Sim2.bind (sim_maybeToken hts _ (by decide))
    fun _ => Sim2.pure) s

omit hts in
theorem sim_closedList {item : P α} {item2 : RP α} (h : Sim2 ts item item2) :
    Sim2 ts (P.closedList item) (RP.closedList item2) :=
  sim_closed (fun _ => Sim2.bind h fun _ => Sim2.pure) []

theorem sim_separatedList {item : P α} {item2 : RP α} (h : Sim2 ts item item2) :
    Sim2 ts (P.separatedList item) (RP.separatedList item2) :=
  sim_separated hts (fun _ => Sim2.bind h fun _ => Sim2.pure) []

omit hts in
theorem sim_distinctColumns : Sim2 ts P.distinctColumns RP.distinctColumns :=
  sim_closed (fun _ => Sim2.bind sim_expectIdentifier fun _ => Sim2.ite Sim2.error Sim2.pure) []

/-- A closing parenthesis or a comma. -/
def commaOrParen (a : α) : P (α × Bool) := do
  let last ← P.maybeToken Tok.rparen
  if last then pure (a, false)
  else do
    let _ ← P.expectTokens [Tok.comma]
    pure (a, true)

omit hts in
theorem commaOrParen_eq {l : List Token} (h : Token.eof ∉ l) (a : α) :
    (do let t ← P.expectTokens [Tok.comma, Tok.rparen]; pure (a, t == Tok.comma) : P (α × Bool)) l =
      commaOrParen a l := by
  cases l with
  | nil => rfl
  | cons t l =>
    cases t <;> first
      | rfl
      | exact absurd List.mem_cons_self h
      | (rename_i b; cases b <;> rfl)
      | skip
    rename_i n
    by_cases h1 : n = 44
    · subst h1; rfl
    · by_cases h2 : n = 41
      · subst h2; rfl
      · have h3 : Token.rune n ≠ Tok.comma := fun e => h1 (by injection e)
        have h4 : Token.rune n ≠ Tok.rparen := fun e => h2 (by injection e)
        simp [commaOrParen, bind, P.bind, P.expectTokens, P.maybeToken, P.next, h3, h4, P.unscan,
          P.errorGot, P.errorAt, pure]

omit hts in
theorem bind_assoc_P {γ : Type} (m : P α) (f : α → P β) (g : β → P γ) :
    (m >>= f) >>= g = m >>= fun a => f a >>= g := by
  funext l
  show P.bind (P.bind m f) g l = P.bind m (fun a => P.bind (f a) g) l
  unfold P.bind
  cases m l <;> rfl

theorem sim_untilParen {item : P α} {item2 : RP α} (h : Sim2 ts item item2) :
    Sim2 ts (P.closedList item) (RP.untilParen item2) := by
  unfold P.closedList P.closed RP.untilParen
  refine sim_loop (fun l => ?_) []
  rw [bind_assoc_P]
  refine Sim2.bind h fun a => ?_
  have e : Sim2 ts (commaOrParen (l ++ [a])) (do
      let last ← RP.maybeToken Tok.rparen
      if last then pure (l ++ [a], false)
      else do
        let _ ← RP.expectTokens [Tok.comma]
        pure (l ++ [a], true)) :=
    Sim2.bind (sim_maybeToken hts _ (by decide)) fun _ => Sim2.ite Sim2.pure
      (Sim2.bind (sim_expectTokens _ (by decide)) fun _ => Sim2.pure)
  exact Sim.congr e fun p => commaOrParen_eq (fun h => hts (List.mem_of_mem_drop h)) _

end

end Maho
