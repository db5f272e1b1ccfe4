import Verif.Lemmas.Parse
import Verif.Spec.Parse
/-
Helper lemmas for C64 and C65: the statements.
-/
namespace Maho
open P Maho.Spec

/-- What `m` returns satisfies `I`. -/
def Post {α : Type} (m : P α) (I : α → Prop) : Prop := ∀ ts a rest, m ts = .ok a rest → I a

namespace Post

variable {α β σ : Type}

theorem pure {a : α} {I : α → Prop} (h : I a) : Post (Pure.pure a : P α) I := by
  intro ts b rest hb
  cases hb
  exact h

theorem error {I : α → Prop} : Post (P.error : P α) I := fun _ _ _ h => nomatch h

theorem crash {I : α → Prop} : Post (P.crash : P α) I := fun _ _ _ h => nomatch h

theorem any {m : P α} : Post m (fun _ => True) := fun _ _ _ _ => trivial

theorem mono {m : P α} {I J : α → Prop} (h : Post m I) (hij : ∀ a, I a → J a) : Post m J :=
  fun ts a rest ha => hij a (h ts a rest ha)

theorem bind {m : P α} {f : α → P β} {I : α → Prop} {J : β → Prop} (hm : Post m I)
    (hf : ∀ a, I a → Post (f a) J) : Post (m >>= f) J := by
  intro ts b rest h
  change P.bind m f ts = _ at h
  unfold P.bind at h
  split at h
  · rename_i a r ha
    exact hf a (hm ts a r ha) r b rest h
  · cases h
  · cases h
  · cases h

theorem ne {m : P α} {a : α} {ts rest : List Token} (h : Post m (· ≠ a)) (h2 : m ts = .ok a rest) :
    False := h _ _ _ h2 rfl

theorem bindAny {m : P α} {f : α → P β} {J : β → Prop} (hf : ∀ a, Post (f a) J) :
    Post (m >>= f) J := bind any fun a _ => hf a

theorem ite {c : Prop} [Decidable c] {x y : P α} {I : α → Prop} (hx : c → Post x I)
    (hy : ¬ c → Post y I) : Post (if c then x else y) I := by
  split
  · exact hx ‹_›
  · exact hy ‹_›

theorem loopFuel {step : σ → P (σ × Bool)} {I : σ → Prop}
    (h : ∀ s, I s → Post (step s) (fun r => I r.1)) :
    ∀ (k : Nat) (s : σ), I s → Post (P.loopFuel step k s) I
  | 0, _, _ => fun _ _ _ h => nomatch h
  | k + 1, s, hs => by
    refine bind (h s hs) fun r hr => ?_
    obtain ⟨s2, again⟩ := r
    exact ite (fun _ => loopFuel h k s2 hr) (fun _ => pure hr)

theorem loop {step : σ → P (σ × Bool)} {I : σ → Prop} {s : σ} (hs : I s)
    (h : ∀ s, I s → Post (step s) (fun r => I r.1)) : Post (P.loop step s) I :=
  fun ts => loopFuel h _ s hs ts

theorem closed {step : σ → P σ} {I : σ → Prop} {s : σ} (hs : I s)
    (h : ∀ s, I s → Post (step s) I) : Post (P.closed step s) I :=
  loop hs fun s hs => bind (h s hs) fun _ hs => bindAny fun _ => pure hs

end Post

namespace Runs

variable {B : List Token} {n : Nat} {α β σ : Type}

/-- `bindAll` with what is known of the result. -/
theorem bindAllPost {m : P α} {f : α → P β} {I : α → Prop} {D : β → Prop} (hm : Runs B n m AllC)
    (hp : Post m I) (h1 : ∀ a, I a → Runs B (n - 1) (f a) NoC) : Runs B n (m >>= f) D := by
  intro ts hs hl
  have := hm ts hs hl
  show Outcome B ts.length D (P.bind m f ts)
  unfold P.bind
  cases he : m ts with
  | panic => rw [he] at this; exact this
  | stuck => rw [he] at this; exact this
  | fail e rest => rw [he] at this; exact this
  | ok a rest =>
    rw [he] at this
    obtain ⟨g1, g2, g3⟩ := this
    have := g3 trivial
    exact (h1 a (hp _ _ _ he) rest g1 (by omega)).mono g2 (fun _ _ => Or.inr this)

/-- `bindNo` with what is known of the result. -/
theorem bindNoPost {m : P α} {f : α → P β} {I : α → Prop} {D : β → Prop} (hm : Runs B n m NoC)
    (hp : Post m I) (h1 : ∀ a, I a → Runs B n (f a) D) : Runs B n (m >>= f) D := by
  intro ts hs hl
  have := hm ts hs hl
  show Outcome B ts.length D (P.bind m f ts)
  unfold P.bind
  cases he : m ts with
  | panic => rw [he] at this; exact this
  | stuck => rw [he] at this; exact this
  | fail e rest => rw [he] at this; exact this
  | ok a rest =>
    rw [he] at this
    obtain ⟨g1, g2, g3⟩ := this
    exact (h1 a (hp _ _ _ he) rest g1 (by omega)).mono g2 (fun _ h => Or.inl h)

theorem loopFuelPost {step : σ → P (σ × Bool)} {D : Prop} {I : σ → Prop}
    (hp : ∀ s, I s → Post (step s) (fun r => I r.1))
    (h : ∀ s, I s → Runs B n (step s) (fun r => r.2 = true ∨ D)) :
    ∀ (k : Nat) (s : σ) (ts : List Token), I s → ts <:+ B → ts.length < n → ts.length < k →
      Outcome B ts.length (fun _ => D) (P.loopFuel step k s ts)
  | 0, _, _, _, _, _, h3 => absurd h3 (by omega)
  | k + 1, s, ts, hI, h1, h2, h3 => by
    have hs := h s hI ts h1 h2
    show Outcome B ts.length (fun _ => D) (P.bind (step s) _ ts)
    unfold P.bind
    cases he : step s ts with
    | panic => rw [he] at hs; exact hs
    | stuck => rw [he] at hs; exact hs
    | fail e rest => rw [he] at hs; exact hs
    | ok r rest =>
      have hI2 := hp s hI _ _ _ he
      obtain ⟨s2, again⟩ := r
      rw [he] at hs
      obtain ⟨g1, g2, g3⟩ := hs
      cases again with
      | false => exact ⟨g1, g2, fun d => g3 (Or.inr d)⟩
      | true =>
        have := g3 (Or.inl rfl)
        exact (loopFuelPost hp h k s2 rest hI2 g1 (by omega) (by omega)).mono g2
          (fun _ _ => Or.inr this)

theorem loopPost {step : σ → P (σ × Bool)} {D : Prop} {I : σ → Prop} {s : σ} (hs : I s)
    (hp : ∀ s, I s → Post (step s) (fun r => I r.1))
    (h : ∀ s, I s → Runs B n (step s) (fun r => r.2 = true ∨ D)) :
    Runs B n (P.loop step s) (fun _ => D) :=
  fun ts h1 h2 => loopFuelPost hp h (ts.length + 1) s ts hs h1 h2 (by omega)

theorem closedPost (hB : Token.eof ∉ B) {step : σ → P σ} {I : σ → Prop} {s : σ} (hs : I s)
    (hp : ∀ s, I s → Post (step s) I) (h : ∀ s, I s → Runs B n (step s) NoC) :
    Runs B n (P.closed step s) AllC := by
  refine (loopPost (D := True) hs ?_ fun s hs => ?_).mono (fun _ _ => trivial)
  · exact fun s hs => .bind (hp s hs) fun _ hs => .bindAny fun _ => .pure hs
  refine bindNo (h s hs) fun s => ?_
  exact bindAll (expectTokens hB (by simp)) fun _ => pure (fun h => h)

/-! Keys, types and actions. -/

variable (hB : Token.eof ∉ B)
include hB

theorem parseKey {unique : Bool} : Runs B n (Maho.parseKey unique) AllC := by
  refine bindAll (expectTokens hB (by simp)) fun _ => (closed hB fun key => ?_).weaken
  refine bindNo (expectIdentifier hB).weaken fun nam => ite error ?_
  refine bindNo (optionalReserved hB).weaken fun asc => ?_
  refine ite ?_ ?_
  · exact bindNo (pure (fun h => h)) fun _ => pure (fun h => h)
  · exact bindNo (optionalReserved hB).weaken fun _ => pure (fun h => h)

theorem parseRefAction : Runs B n Maho.parseRefAction AllC := by
  refine bindAll (expectReserved hB) fun id => ite ?_ (ite (pure (fun h => h)) (ite
    (pure (fun h => h)) ?_))
  · exact bindNo (expectReserved hB).weaken fun _ => pure (fun h => h)
  · exact bindNo (expectReserved hB).weaken fun _ => pure (fun h => h)

theorem parseOnActions : Runs B n Maho.parseOnActions NoC := by
  refine (loop (D := False) fun s => ?_).mono (fun _ h => h.elim)
  refine bindBool (optionalReserved hB) ?_ (pure (by simp))
  refine bindNo (expectReserved hB).weaken fun id => ite (ite error ?_) (ite error ?_)
  · exact bindNo (parseRefAction hB).weaken fun _ => pure (fun h => h)
  · exact bindNo (parseRefAction hB).weaken fun _ => pure (fun h => h)

theorem parseForeignKey {cn : Identifier} : Runs B n (Maho.parseForeignKey cn) AllC := by
  refine bindAll (expectTokens hB (by simp)) fun _ => ?_
  refine bindNo (closedList hB (expectIdentifier hB).weaken).weaken fun _ => ?_
  refine bindNo (expectReserved hB).weaken fun _ => bindNo (parseTableName hB).weaken fun _ => ?_
  refine bindNo (maybeToken hB (by simp)).weaken fun paren => ?_
  refine ite ?_ ?_
  · exact bindNo (closedList hB (expectIdentifier hB).weaken).weaken fun _ =>
      bindNo (parseOnActions hB) fun _ => pure (fun h => h)
  · exact bindNo (pure (fun h => h)) fun _ => bindNo (parseOnActions hB) fun _ => pure (fun h => h)

theorem parseColumnType : Runs B n Maho.parseColumnType AllC := by
  refine bindAll (expectIdentifier hB) fun typ => ?_
  split
  · exact error
  · rename_i ct _
    have : Runs B (n - 1) (if ct.type = .string ∨ ct.type = .bytes then do
        let paren ← P.maybeToken Tok.lparen
        if paren then do
          let i ← P.expectInteger 0 maxColumnSize
          let _ ← P.expectTokens [Tok.rparen]
          Pure.pure { ct with size := BitVec.setWidth 32 i }
        else Pure.pure ct
      else (Pure.pure ct : P ColumnType)) NoC := by
      refine ite ?_ (pure (fun h => h))
      refine bindNo (maybeToken hB (by simp)).weaken fun paren => ite ?_ (pure (fun h => h))
      exact bindNo (expectInteger hB).weaken fun _ => bindNo (expectTokens hB (by simp)).weaken
        fun _ => pure (fun h => h)
    exact ite (bindNo (maybeIdentifier hB).weaken fun _ => this)
      (bindNo (pure (fun h => h)) fun _ => this)

theorem parseConstraintName : Runs B n Maho.parseConstraintName NoC :=
  bindNo (clause hB (expectIdentifier hB).weaken).weaken fun _ => pure (fun h => h)

theorem parseIfNotExists : Runs B n Maho.parseIfNotExists NoC :=
  bindNo (clause hB (bindNo (expectReserved hB).weaken fun _ => (expectReserved hB).weaken)).weaken
    fun _ => pure (fun h => h)

theorem parseIfExists : Runs B n Maho.parseIfExists NoC :=
  bindNo (clause hB (expectReserved hB).weaken).weaken fun _ => pure (fun h => h)

theorem parseColumns : Runs B n Maho.parseColumns NoC :=
  bindNo (maybeToken hB (by simp)).weaken fun _ =>
    ite (distinctColumns hB).weaken (pure (fun h => h))

end Runs

/-! Keys. -/

theorem equal_go_total : ∀ (cs : List Identifier) (r : List Bool) (cs2 : List Identifier)
    (r2 : List Bool), r.length = cs.length → r2.length = cs2.length →
    ∃ b, IndexKey.equal.go cs r cs2 r2 = .ok b
  | [], _, _, _, _, _ => by simp [IndexKey.equal.go]
  | _ :: _, _, [], _, _, _ => by simp [IndexKey.equal.go]
  | c :: cs, d :: ds, c2 :: cs2, d2 :: ds2, h1, h2 => by
    simp only [IndexKey.equal.go]
    split
    · exact ⟨_, rfl⟩
    · split
      · exact ⟨_, rfl⟩
      · exact equal_go_total cs ds cs2 ds2 (by simpa using h1) (by simpa using h2)

theorem anyEqualKey_total (key : IndexKey) (hk : key.reverse.length = key.columns.length) :
    ∀ cs : List Constraint, (∀ c ∈ cs, c.key.reverse.length = c.key.columns.length) →
      ∃ b, anyEqualKey key cs = .ok b
  | [], _ => ⟨_, rfl⟩
  | c :: cs, h => by
    have h1 : ∃ b, key.equal c.key = .ok b := by
      unfold IndexKey.equal
      split
      · exact ⟨_, rfl⟩
      · exact equal_go_total _ _ _ _ hk (h c (by simp))
    obtain ⟨b, hb⟩ := h1
    simp only [anyEqualKey, hb]
    cases b with
    | true => exact ⟨_, rfl⟩
    | false => exact anyEqualKey_total key hk cs (fun c hc => h c (by simp [hc]))

theorem parseKey_post {unique : Bool} :
    Post (parseKey unique) (fun k => k.reverse.length = k.columns.length) := by
  refine .bindAny fun _ => .closed rfl fun key hk => ?_
  refine .bindAny fun nam => .ite (fun _ => .error) fun _ => .bindAny fun asc => ?_
  refine .ite (fun _ => ?_) (fun _ => ?_)
  all_goals exact .bindAny fun _ => .pure (by simpa using hk)

/-- What holds of the definition while a column is parsed. -/
structure Building (s : CreateTable) : Prop where
  primary : (s.constraints.filter (·.type == .primary)).length ≤ 1
  directions : ∀ c ∈ s.constraints, c.key.reverse.length = c.key.columns.length

theorem Building.add {s : CreateTable} (h : Building s) {c : Constraint} (hc : c.type ≠ .primary)
    (hk : c.key.reverse.length = c.key.columns.length) :
    Building { s with constraints := s.constraints ++ [c] } := by
  refine ⟨?_, ?_⟩
  · have := h.primary
    simpa [List.filter_append, hc] using this
  · intro c' hc'
    simp at hc'
    rcases hc' with hc' | rfl
    · exact h.directions c' hc'
    · exact hk

/-- The new definition differs in its constraints only. -/
def SameColumns (s s' : CreateTable) : Prop :=
  s'.columns = s.columns ∧ s'.columnTypes = s.columnTypes ∧ s'.columnDefaults = s.columnDefaults

theorem SameColumns.refl (s : CreateTable) : SameColumns s s := ⟨rfl, rfl, rfl⟩

theorem addColumnConstraint_post {s : CreateTable} (h : Building s) {ct : ConstraintType}
    (hct : ct ≠ .primary) {cn : Identifier} {colNum : Nat} :
    Post (addColumnConstraint s ct cn colNum) (fun s' => Building s' ∧ SameColumns s s') := by
  unfold addColumnConstraint
  exact .ite (fun _ => .error) fun _ => .pure ⟨h.add hct rfl, rfl, rfl, rfl⟩

theorem addKeyConstraint_post {s : CreateTable} (h : Building s) {ct : ConstraintType}
    {cn : Identifier} {key : IndexKey} (hk : key.reverse.length = key.columns.length) :
    Post (addKeyConstraint s ct cn key) (fun s' => Building s' ∧ SameColumns s s') := by
  unfold addKeyConstraint
  refine .ite (fun _ => .error) fun hn => ?_
  obtain ⟨b, hb⟩ := anyEqualKey_total key hk s.constraints h.directions
  rw [hb]
  cases b with
  | true => exact .error
  | false =>
    refine .pure ⟨?_, rfl, rfl, rfl⟩
    by_cases hct : ct = .primary
    · subst hct
      refine ⟨?_, ?_⟩
      · have : s.constraints.filter (·.type == .primary) = [] := by
          rw [List.filter_eq_nil_iff]
          intro c hc hp
          apply hn
          rw [List.any_eq_true]
          exact ⟨c, hc, by simp_all⟩
        simp [List.filter_append, this]
      · intro c hc
        simp at hc
        rcases hc with hc | rfl
        · exact h.directions c hc
        · exact hk
    · exact h.add hct hk

theorem addKeyConstraint_runs {B : List Token} {n : Nat} {s : CreateTable} (h : Building s)
    {ct : ConstraintType} {cn : Identifier} {key : IndexKey}
    (hk : key.reverse.length = key.columns.length) :
    Runs B n (addKeyConstraint s ct cn key) NoC := by
  unfold addKeyConstraint
  refine .ite .error ?_
  obtain ⟨b, hb⟩ := anyEqualKey_total key hk s.constraints h.directions
  rw [hb]
  cases b with
  | true => exact .error
  | false => exact .pure (fun h => h)

theorem addColumnConstraint_runs {B : List Token} {n : Nat} {s : CreateTable}
    {ct : ConstraintType} {cn : Identifier} {colNum : Nat} :
    Runs B n (addColumnConstraint s ct cn colNum) NoC := by
  unfold addColumnConstraint
  exact .ite .error (.pure (fun h => h))

/-- The constraints of a column leave the columns as they are. -/
theorem columnConstraint_post {env : ParseEnv} {p : Parsers} {nam : Identifier} {s0 : CreateTable}
    {st : ColumnState} (h : Building st.s ∧ SameColumns s0 st.s) :
    Post (p.columnConstraint env nam st) (fun r => Building r.1.s ∧ SameColumns s0 r.1.s) := by
  have trans : ∀ {s'}, Building s' ∧ SameColumns st.s s' → Building s' ∧ SameColumns s0 s' :=
    fun ⟨h1, h2, h3, h4⟩ => ⟨h1, h2.trans h.2.1, h3.trans h.2.2.1, h4.trans h.2.2.2⟩
  refine .bindAny fun cn => .bindAny fun o => ?_
  cases o with
  | none => exact .ite (fun _ => .error) (fun _ => .pure h)
  | some id =>
    refine .ite (fun _ => ?_) fun _ => .ite (fun _ => ?_) fun _ => .ite (fun _ => ?_) fun _ =>
      .ite (fun _ => ?_) fun _ => .ite (fun _ => ?_) fun _ => ?_
    · refine .ite (fun _ => .error) fun _ => .ite (fun _ => ?_) fun _ => ?_
      · exact .bind (addColumnConstraint_post h.1 (by simp)) fun s hs => .bindAny fun e =>
          .pure (trans hs)
      · exact .bind (I := fun s => Building s ∧ SameColumns s0 s) (.pure h) fun s hs =>
          .bindAny fun e => .pure hs
    · refine .bindAny fun _ => .ite (fun _ => .error) fun _ => .ite (fun _ => ?_) fun _ => ?_
      · exact .bind (addColumnConstraint_post h.1 (by simp)) fun s hs => .pure (trans hs)
      · exact .bind (.pure h) fun s hs => .pure hs
    · refine .bindAny fun _ => .bind (addKeyConstraint_post h.1 rfl) fun s hs => .pure (trans hs)
    · refine .bind (addKeyConstraint_post h.1 rfl) fun s hs => .pure (trans hs)
    · refine .bindAny fun _ => .bindAny fun _ => .bindAny fun _ => .pure ?_
      exact ⟨h.1.add (by simp) rfl, h.2⟩
    · refine .bindAny fun _ => .bindAny fun paren => .ite (fun _ => ?_) fun _ => ?_
      all_goals
        refine .bindAny fun _ => .bindAny fun o => .pure ⟨⟨h.1.primary, h.1.directions⟩, h.2⟩

/-- The constraint that is added. -/
theorem addColumnConstraint_eq {s : CreateTable} {ct : ConstraintType} {cn : Identifier}
    {colNum : Nat} : Post (addColumnConstraint s ct cn colNum)
      (fun s' => s' = { s with constraints := s.constraints ++ [⟨ct, cn, colNum, .zero, none⟩] }) := by
  unfold addColumnConstraint
  exact .ite (fun _ => .error) fun _ => .pure rfl

theorem addKeyConstraint_eq {s : CreateTable} {ct : ConstraintType} {cn : Identifier}
    {key : IndexKey} : Post (addKeyConstraint s ct cn key)
      (fun s' => s' = { s with constraints := s.constraints ++ [⟨ct, cn, -1, key, none⟩] }) := by
  unfold addKeyConstraint
  refine .ite (fun _ => .error) fun _ => ?_
  split
  · exact .pure rfl
  · exact .error
  · exact fun _ _ _ h => nomatch h

/-- What holds of the constraints while a column is parsed. -/
structure Pending (st : ColumnState) : Prop where
  types : st.s.columnTypes.length + 1 = st.s.columns.length
  defaults : st.s.columnDefaults.length + 1 = st.s.columns.length
  refers : ∀ c ∈ st.s.constraints,
    Refers (st.s.columnTypes ++ [st.ct]) (st.s.columnDefaults ++ [st.dflt]) c

/-- The last default and type can be changed as long as what was there stays. -/
theorem refers_last {types : List ColumnType} {defaults : List (Option Expr)} {ct ct' : ColumnType}
    {d d' : Option Expr} {c : Constraint} (hl : types.length = defaults.length)
    (h : Refers (types ++ [ct]) (defaults ++ [d]) c)
    (hc : ct.notNull = true → ct'.notNull = true) (hd : ∀ e, d = some e → ∃ e, d' = some e) :
    Refers (types ++ [ct']) (defaults ++ [d']) c := by
  rcases h with h | ⟨i, h1, h2, h3, h4⟩
  · exact .inl h
  · refine .inr ⟨i, h1, by simpa using h2, fun h => ?_, fun h => ?_⟩
    · obtain ⟨e, he⟩ := h3 h
      rw [List.getElem?_append] at he ⊢
      split at he
      · rename_i hi
        rw [if_pos hi]
        exact ⟨e, he⟩
      · rename_i hi
        rw [if_neg hi]
        have : i - defaults.length = 0 := by simp at h2; omega
        rw [this] at he ⊢
        simp at he ⊢
        exact hd e he
    · obtain ⟨t, he, ht⟩ := h4 h
      rw [List.getElem?_append] at he ⊢
      split at he
      · rename_i hi
        rw [if_pos hi]
        exact ⟨t, he, ht⟩
      · rename_i hi
        rw [if_neg hi]
        have : i - types.length = 0 := by simp at h2; omega
        rw [this] at he ⊢
        simp at he ⊢
        subst he
        exact hc ht

/-- The constraints of a column refer to it. -/
theorem columnConstraint_refers {env : ParseEnv} {p : Parsers} {nam : Identifier} {st : ColumnState}
    (h : Pending st) : Post (p.columnConstraint env nam st) (fun r => Pending r.1) := by
  obtain ⟨ht, hd, hr⟩ := h
  have hl : st.s.columnTypes.length = st.s.columnDefaults.length := by omega
  have add : ∀ (ct : ColumnType) (d : Option Expr) (c : Constraint),
      (st.ct.notNull = true → ct.notNull = true) → (∀ e, st.dflt = some e → ∃ e, d = some e) →
      Refers (st.s.columnTypes ++ [ct]) (st.s.columnDefaults ++ [d]) c →
      Pending ⟨{ st.s with constraints := st.s.constraints ++ [c] }, ct, d⟩ := by
    intro ct d c h1 h2 h3
    refine ⟨ht, hd, fun c' hc' => ?_⟩
    simp at hc'
    rcases hc' with hc' | rfl
    · exact refers_last hl (hr c' hc') h1 h2
    · exact h3
  have keep : ∀ (ct : ColumnType) (d : Option Expr),
      (st.ct.notNull = true → ct.notNull = true) → (∀ e, st.dflt = some e → ∃ e, d = some e) →
      Pending ⟨st.s, ct, d⟩ :=
    fun ct d h1 h2 => ⟨ht, hd, fun c hc => refers_last hl (hr c hc) h1 h2⟩
  have hn : (st.s.columns.length - 1 : Nat) = st.s.columnTypes.length := by omega
  refine .bindAny fun cn => .bindAny fun o => ?_
  cases o with
  | none => exact .ite (fun _ => .error) (fun _ => .pure ⟨ht, hd, hr⟩)
  | some id =>
    refine .ite (fun _ => ?_) fun _ => .ite (fun _ => ?_) fun _ => .ite (fun _ => ?_) fun _ =>
      .ite (fun _ => ?_) fun _ => .ite (fun _ => ?_) fun _ => ?_
    · refine .ite (fun _ => .error) fun _ => .ite (fun _ => ?_) fun _ => ?_
      · refine .bind addColumnConstraint_eq fun s hs => .bindAny fun e => .pure ?_
        subst hs
        refine add st.ct (some e) _ (fun h => h) (fun _ _ => ⟨e, rfl⟩) (.inr ⟨_, rfl, ?_, ?_, nofun⟩)
        · simp only [hn]; simp
        · intro _
          simp only [hn, hl]
          simp
      · exact .bind (I := fun s => s = st.s) (.pure rfl) fun s hs =>
          .bindAny fun e => .pure (hs ▸ keep _ _ (fun h => h) (fun _ _ => ⟨e, rfl⟩))
    · refine .bindAny fun _ => .ite (fun _ => .error) fun _ => .ite (fun _ => ?_) fun _ => ?_
      · refine .bind addColumnConstraint_eq fun s hs => .pure ?_
        subst hs
        refine add { st.ct with notNull := true } st.dflt _ (fun _ => rfl) (fun e h => ⟨e, h⟩)
          (.inr ⟨_, rfl, ?_, nofun, ?_⟩)
        · simp only [hn]; simp
        · intro _
          simp only [hn]
          simp
      · exact .bind (I := fun s => s = st.s) (.pure rfl) fun s hs =>
          .pure (hs ▸ keep _ _ (fun _ => rfl) (fun e h => ⟨e, h⟩))
    · refine .bindAny fun _ => .bind addKeyConstraint_eq fun s hs => .pure ?_
      subst hs
      exact add _ _ _ (fun h => h) (fun e h => ⟨e, h⟩) (.inl ⟨rfl, by simp, by simp⟩)
    · refine .bind addKeyConstraint_eq fun s hs => .pure ?_
      subst hs
      exact add _ _ _ (fun h => h) (fun e h => ⟨e, h⟩) (.inl ⟨rfl, by simp, by simp⟩)
    · refine .bindAny fun _ => .bindAny fun _ => .bindAny fun _ => .pure ?_
      exact add _ _ _ (fun h => h) (fun e h => ⟨e, h⟩)
        (.inr ⟨_, rfl, by simp only [hn]; simp, by simp, by simp⟩)
    · refine .bindAny fun _ => .bindAny fun paren => .ite (fun _ => ?_) fun _ => ?_
      all_goals
        refine .bindAny fun _ => .bindAny fun o => .pure ⟨ht, hd, hr⟩

theorem consistent_building {s : CreateTable} (h : Consistent s) : Building s :=
  ⟨h.primary, h.directions⟩

theorem column_post {env : ParseEnv} {p : Parsers} {s : CreateTable} (h : Consistent s) :
    Post (p.column env s) Consistent := by
  refine .bindAny fun nam => .ite (fun _ => .error) fun hn => .bindAny fun ct => ?_
  refine .bind (.loop (I := fun st => (Building st.s ∧
    SameColumns { s with columns := s.columns ++ [nam] } st.s) ∧ Pending st)
    ⟨⟨⟨h.primary, h.directions⟩, .refl _⟩, ?_⟩ fun st hst => fun ts r rest hp =>
      ⟨columnConstraint_post hst.1 ts r rest hp, columnConstraint_refers hst.2 ts r rest hp⟩)
    fun st hst => ?_
  · refine ⟨by simp [h.types], by simp [h.defaults], fun c hc => ?_⟩
    rcases h.refers c hc with h1 | ⟨i, h1, h2, h3, h4⟩
    · exact .inl h1
    · refine .inr ⟨i, h1, by simp; omega, fun hh => ?_, fun hh => ?_⟩
      · obtain ⟨e, he⟩ := h3 hh
        exact ⟨e, by rw [List.getElem?_append_left (List.getElem?_eq_some_iff.1 he).1]; exact he⟩
      · obtain ⟨t, he, ht⟩ := h4 hh
        exact ⟨t, by rw [List.getElem?_append_left (List.getElem?_eq_some_iff.1 he).1]; exact he, ht⟩
  obtain ⟨⟨h1, h2, h3, h4⟩, h5⟩ := hst
  refine .pure ⟨?_, ?_, ?_, h1.primary, h1.directions, h5.refers⟩
  · show st.s.columns.Nodup
    rw [h2]
    simp only [List.nodup_append, List.nodup_cons]
    refine ⟨h.distinct, by simp, ?_⟩
    intro a ha b hb hab
    simp at hb
    subst hb hab
    exact hn ha
  · show (st.s.columnTypes ++ [st.ct]).length = st.s.columns.length
    rw [h2, h3]
    simp [h.types]
  · show (st.s.columnDefaults ++ [st.dflt]).length = st.s.columns.length
    rw [h2, h4]
    simp [h.defaults]

theorem SameColumns.consistent {s s' : CreateTable} (h : Consistent s)
    (h2 : Building s' ∧ SameColumns s s') {c : Constraint} (hc : s'.constraints = s.constraints ++ [c])
    (hr : c.colNum = -1) (h3 : c.type ≠ .default) (h4 : c.type ≠ .notNull) : Consistent s' := by
  obtain ⟨g, g2, g3, g4⟩ := h2
  refine ⟨g2 ▸ h.distinct, by rw [g2, g3]; exact h.types, by rw [g2, g4]; exact h.defaults,
    g.primary, g.directions, fun c' hc' => ?_⟩
  rw [hc] at hc'
  simp at hc'
  rcases hc' with hc' | rfl
  · rw [g3, g4]
    exact h.refers c' hc'
  · exact .inl ⟨hr, h3, h4⟩

theorem createDetail_post {env : ParseEnv} {p : Parsers} {s : CreateTable} (h : Consistent s) :
    Post (p.createDetail env s) Consistent := by
  have hb := consistent_building h
  refine .bindAny fun cn => .bindAny fun o => ?_
  cases o with
  | none => exact .ite (fun _ => .error) (fun _ => column_post h)
  | some id =>
    refine .ite (fun _ => ?_) fun _ => .ite (fun _ => ?_) fun _ => .ite (fun _ => ?_) fun _ => ?_
    · refine .bindAny fun _ => .bind parseKey_post fun key hk => ?_
      exact fun ts s' rest hp => SameColumns.consistent h (addKeyConstraint_post hb hk ts s' rest hp)
        (congrArg CreateTable.constraints (addKeyConstraint_eq ts s' rest hp)) rfl (by simp) (by simp)
    · refine .bind parseKey_post fun key hk => ?_
      exact fun ts s' rest hp => SameColumns.consistent h (addKeyConstraint_post hb hk ts s' rest hp)
        (congrArg CreateTable.constraints (addKeyConstraint_eq ts s' rest hp)) rfl (by simp) (by simp)
    · refine .bindAny fun _ => .bindAny fun _ => .bindAny fun _ => .pure ?_
      exact SameColumns.consistent h ⟨hb.add (by simp) rfl, rfl, rfl, rfl⟩ rfl rfl (by simp) (by simp)
    · refine .bindAny fun _ => .bindAny fun _ => .pure ?_
      exact ⟨h.distinct, h.types, h.defaults, h.primary, h.directions, h.refers⟩

theorem createTable_post {env : ParseEnv} {p : Parsers} :
    Post (p.createTable env) Consistent := by
  refine .bindAny fun _ => .bindAny fun _ => .bindAny fun _ => .closed ?_ fun s hs =>
    createDetail_post hs
  exact ⟨by simp, rfl, rfl, by simp, by simp, by simp⟩

namespace GoodParsers
open Runs

variable {B : List Token} {n : Nat} {p : Parsers} (hB : Token.eof ∉ B)
include hB

theorem columnConstraint {env : ParseEnv} (g : GoodParsers B n p) {nam : Identifier} {st : ColumnState}
    (h : Building st.s) : Runs B n (p.columnConstraint env nam st) (fun r => r.2 = true) := by
  have g1 := g.fewer (Nat.sub_le n 1)
  refine bindNo (Runs.parseConstraintName hB) fun cn => ?_
  refine bindOption (optionalReservedId hB) (fun id => ?_) (ite error (pure (by simp)))
  refine ite ?_ (ite ?_ (ite ?_ (ite ?_ (ite ?_ ?_))))
  · refine ite error (ite ?_ ?_)
    · exact bindNo addColumnConstraint_runs fun _ => bindNo g1.expr.weaken fun _ =>
        pure (fun h => h)
    · exact bindNo (pure (fun h => h)) fun _ => bindNo g1.expr.weaken fun _ => pure (fun h => h)
  · refine bindNo (expectReserved hB).weaken fun _ => ite error (ite ?_ ?_)
    · exact bindNo addColumnConstraint_runs fun _ => pure (fun h => h)
    · exact bindNo (pure (fun h => h)) fun _ => pure (fun h => h)
  · refine bindNo (expectReserved hB).weaken fun _ => ?_
    exact bindNo (addKeyConstraint_runs h rfl) fun _ => pure (fun h => h)
  · exact bindNo (addKeyConstraint_runs h rfl) fun _ => pure (fun h => h)
  · exact bindNo (expectTokens hB (by simp)).weaken fun _ => bindNo g1.expr.weaken fun _ =>
      bindNo (expectTokens hB (by simp)).weaken fun _ => pure (fun h => h)
  · refine bindNo (Runs.parseTableName hB).weaken fun _ => ?_
    refine bindNo (maybeToken hB (by simp)).weaken fun paren => ite ?_ ?_
    · refine bindNo ?_ fun _ => bindNo (Runs.parseOnActions hB) fun _ => pure (fun h => h)
      exact bindNo (expectIdentifier hB).weaken fun _ =>
        bindNo (expectTokens hB (by simp)).weaken fun _ => pure (fun h => h)
    · exact bindNo (pure (fun h => h)) fun _ => bindNo (Runs.parseOnActions hB) fun _ =>
        pure (fun h => h)

theorem column {env : ParseEnv} (g : GoodParsers B n p) {s : CreateTable} (h : Building s) :
    Runs B n (p.column env s) NoC := by
  refine bindNo (expectIdentifier hB).weaken fun nam => ite error ?_
  refine bindNo (Runs.parseColumnType hB).weaken fun ct => ?_
  refine bindNo (m := P.loop (p.columnConstraint env nam) _) ?_ fun _ => pure (fun h => h)
  refine (loopPost (D := False) (I := fun st => Building st.s ∧
    SameColumns { s with columns := s.columns ++ [nam] } st.s)
    ⟨⟨h.primary, h.directions⟩, .refl _⟩ (fun st hst => columnConstraint_post hst)
    fun st hst => ?_).mono (fun _ h => h.elim)
  exact (columnConstraint hB g hst.1).mono fun _ h => by simpa using h

theorem createDetail {env : ParseEnv} (g : GoodParsers B n p) {s : CreateTable} (h : Building s) :
    Runs B n (p.createDetail env s) NoC := by
  refine bindNo (Runs.parseConstraintName hB) fun cn => ?_
  refine bindNo (optionalReservedId hB).weaken fun o => ?_
  cases o with
  | none => exact ite error (column hB g h)
  | some id =>
    refine ite ?_ (ite ?_ (ite ?_ ?_))
    · exact bindNo (expectReserved hB).weaken fun _ => bindNoPost (Runs.parseKey hB).weaken
        parseKey_post fun key hk => addKeyConstraint_runs h hk
    · exact bindNoPost (Runs.parseKey hB).weaken parseKey_post fun key hk =>
        addKeyConstraint_runs h hk
    · exact bindNo (expectTokens hB (by simp)).weaken fun _ => bindNo g.expr.weaken fun _ =>
        bindNo (expectTokens hB (by simp)).weaken fun _ => pure (fun h => h)
    · exact bindNo (expectReserved hB).weaken fun _ => bindNo (Runs.parseForeignKey hB).weaken
        fun _ => pure (fun h => h)

theorem createTable {env : ParseEnv} (g : GoodParsers B n p) : Runs B n (p.createTable env) NoC := by
  refine bindNo (Runs.parseIfNotExists hB) fun _ => bindNo (Runs.parseTableName hB).weaken
    fun _ => bindNo (expectTokens hB (by simp)).weaken fun _ => ?_
  refine (closedPost hB (I := Consistent) ?_ (fun s hs => createDetail_post hs) fun s hs =>
    createDetail hB g (consistent_building hs)).weaken
  exact ⟨by simp, rfl, rfl, by simp, by simp, by simp⟩

/-! The other statements. -/

theorem parseAlterAction : Runs B n Maho.parseAlterAction AllC := by
  refine bindAll (expectReserved hB) fun id => ite ?_ (ite ?_ ?_)
  · exact bindNo (Runs.parseConstraintName hB) fun _ => bindNo (expectReserved hB).weaken fun _ =>
      bindNo (expectReserved hB).weaken fun _ => bindNo (Runs.parseForeignKey hB).weaken fun _ =>
        pure (fun h => h)
  · exact bindNo (expectReserved hB).weaken fun _ => bindNo (Runs.parseIfExists hB) fun _ =>
      bindNo (expectIdentifier hB).weaken fun _ => pure (fun h => h)
  · refine bindNo (optionalReserved hB).weaken fun _ => bindNo (expectIdentifier hB).weaken
      fun _ => bindNo (expectReserved hB).weaken fun _ => bindNo (expectReserved hB).weaken
        fun _ => ite (pure (fun h => h)) ?_
    exact bindNo (expectReserved hB).weaken fun _ => pure (fun h => h)

theorem parseAlterTable : Runs B n Maho.parseAlterTable NoC :=
  bindNo (Runs.parseTableName hB).weaken fun _ =>
    bindNo (separatedList hB (parseAlterAction hB)).weaken fun _ => pure (fun h => h)

theorem parseCreateIndex {unique : Bool} : Runs B n (Maho.parseCreateIndex unique) NoC := by
  refine bindNo (Runs.parseIfNotExists hB) fun _ => bindNo (expectIdentifier hB).weaken fun _ =>
    bindNo (expectReserved hB).weaken fun _ => bindNo (Runs.parseTableName hB).weaken fun _ => ?_
  refine bindNo (clause hB (expectIdentifier hB).weaken).weaken fun o => ite error ?_
  exact bindNo (Runs.parseKey hB).weaken fun _ => pure (fun h => h)

theorem delete (g : GoodParsers B n p) : Runs B n p.delete NoC :=
  bindNo (Runs.parseTableName hB).weaken fun _ =>
    bindNo (clause hB (g.expr.weaken.fewer (by omega))).weaken fun _ => pure (fun h => h)

theorem parseDropTable : Runs B n Maho.parseDropTable NoC := by
  refine bindNo (Runs.parseIfExists hB) fun _ =>
    bindNo (separatedList hB (Runs.parseTableName hB)).weaken fun _ => ?_
  refine bindNo (optionalReserved hB).weaken fun _ => ite ?_ ?_
  · exact bindNo (pure (fun h => h)) fun _ => pure (fun h => h)
  · exact bindNo (optionalReserved hB).weaken fun _ => pure (fun h => h)

theorem parseDropIndex : Runs B n Maho.parseDropIndex NoC :=
  bindNo (Runs.parseIfExists hB) fun _ => bindNo (expectIdentifier hB).weaken fun _ =>
    bindNo (expectReserved hB).weaken fun _ => bindNo (Runs.parseTableName hB).weaken fun _ =>
      pure (fun h => h)

theorem exprOrDefault (g : GoodParsers B n p) : Runs B n p.exprOrDefault AllC :=
  bindBool (optionalReserved hB) (pure (fun h => h)) (bindAll g.expr fun _ => pure (fun h => h))

theorem insert (g : GoodParsers B n p) : Runs B n p.insert NoC := by
  refine bindNo (Runs.parseTableName hB).weaken fun _ => bindNo (Runs.parseColumns hB) fun _ =>
    bindNo (expectReserved hB).weaken fun _ => bindNo (separatedList hB ?_).weaken fun _ =>
      pure (fun h => h)
  exact bindAll (expectTokens hB (by simp)) fun _ =>
    (closedList hB (exprOrDefault hB (g.fewer (by omega))).weaken).weaken

theorem parseCopy : Runs B n Maho.parseCopy NoC := by
  refine bindNo (Runs.parseTableName hB).weaken fun _ => bindNo (Runs.parseColumns hB) fun _ =>
    bindNo (expectReserved hB).weaken fun _ => bindNo (expectIdentifier hB).weaken fun id =>
      ite error ?_
  refine bindNo (clause hB ?_).weaken fun _ => pure (fun h => h)
  apply peek hB
  · exact errorAt
  · intro t ht _
    left
    split
    · exact pure (fun h => h)
    · exact errorAt

theorem update (g : GoodParsers B n p) : Runs B n p.update NoC := by
  refine bindNo (Runs.parseTableName hB).weaken fun _ => bindNo (expectReserved hB).weaken
    fun _ => bindNo (separatedList hB ?_).weaken fun _ =>
      bindNo (clause hB (g.expr.weaken.fewer (by omega))).weaken fun _ => pure (fun h => h)
  exact bindAll (expectIdentifier hB) fun _ => bindNo (expectTokens hB (by simp)).weaken fun _ =>
    bindNo (exprOrDefault hB (g.fewer (by omega))).weaken fun _ => pure (fun h => h)

theorem parseOptions {env : ParseEnv} : Runs B n (Maho.parseOptions env) NoC := by
  refine bindNo ((loop (D := False) fun s => ?_).mono (fun _ h => h.elim)) fun _ =>
    ite error (pure (fun h => h))
  apply peek hB
  · exact unscan_eof (pure (by simp))
  · intro t ht _
    split
    · left
      refine bindNo (maybeToken hB (by simp)).weaken fun _ => ?_
      apply peek hB
      · exact errorAt
      · intro t ht _
        left
        split
        all_goals first | exact pure (fun h => h) | exact errorAt
    · exact Or.inr ⟨_, rfl, pure (by simp)⟩

theorem parseCreateDatabase {env : ParseEnv} : Runs B n (Maho.parseCreateDatabase env) NoC :=
  bindNo (expectIdentifier hB).weaken fun _ => bindNo (clause hB (parseOptions hB)).weaken
    fun _ => pure (fun h => h)

theorem parseDropDatabase : Runs B n Maho.parseDropDatabase NoC :=
  bindNo (Runs.parseIfExists hB) fun _ => bindNo (expectIdentifier hB).weaken fun _ =>
    pure (fun h => h)

theorem parseDropSchema : Runs B n Maho.parseDropSchema NoC :=
  bindNo (Runs.parseIfExists hB) fun _ => bindNo (Runs.parseSchemaName hB).weaken fun _ =>
    pure (fun h => h)

theorem explain (g : GoodParsers B n p) : Runs B n p.explain NoC :=
  bindNo (optionalReserved hB).weaken fun _ => bindNo (expectReserved hB).weaken fun _ =>
    bindNo (select hB g) fun _ => pure (fun h => h)

theorem create {env : ParseEnv} (g : GoodParsers B n p) : Runs B n (p.create env) NoC := by
  refine bindNo (expectReserved hB).weaken fun _ => ite (parseCreateDatabase hB) (ite
    (parseCreateIndex hB) (ite ?_ (ite ?_ ?_)))
  · exact bindNo (Runs.parseSchemaName hB).weaken fun _ => pure (fun h => h)
  · exact bindNo (createTable hB g) fun _ => pure (fun h => h)
  · exact bindNo (expectReserved hB).weaken fun _ => parseCreateIndex hB

theorem parseDrop : Runs B n Maho.parseDrop NoC :=
  bindNo (expectReserved hB).weaken fun _ => ite (parseDropDatabase hB) (ite (parseDropIndex hB)
    (ite (parseDropSchema hB) (parseDropTable hB)))

/-- Every statement but `SET` and `USE`. -/
theorem afterKeyword {env : ParseEnv} (g : GoodParsers B n p) {id : Identifier} (h1 : id ≠ Kw.SET)
    (h2 : id ≠ Kw.USE) : Runs B n (p.afterKeyword env id) NoC := by
  have m : ∀ {α β : Type} {m : P α} {f : α → β}, Runs B n m NoC → Runs B n (f <$> m) NoC :=
    fun h => map h (fun _ h => h)
  unfold Parsers.afterKeyword
  rw [if_neg h1, if_neg h2]
  refine Runs.ite (bindNo (expectReserved hB).weaken fun _ => m (parseAlterTable hB)) ?_
  refine Runs.ite (pure (fun h => h)) ?_
  refine Runs.ite (pure (fun h => h)) ?_
  refine Runs.ite (m (parseCopy hB)) ?_
  refine Runs.ite (m (create hB g)) ?_
  refine Runs.ite (bindNo (expectReserved hB).weaken fun _ => m (delete hB g)) ?_
  refine Runs.ite (m (parseDrop hB)) ?_
  refine Runs.ite (m (explain hB g)) ?_
  refine Runs.ite (bindNo (expectReserved hB).weaken fun _ => m (insert hB g)) ?_
  refine Runs.ite (pure (fun h => h)) ?_
  refine Runs.ite (m (select hB g)) ?_
  refine Runs.ite (m (Runs.parseShow hB)) ?_
  refine Runs.ite (bindNo (expectReserved hB).weaken fun _ => pure (fun h => h)) ?_
  refine Runs.ite (m (update hB g)) ?_
  exact Runs.ite (m (values hB g).weaken) (pure (fun h => h))

end GoodParsers

/-! `SET` and `USE`: a value is NULL only if it is written `NULL`. -/

theorem adjust_null {e : Expr} {ts rest : List Token} (h : adjust e ts = .ok (.lit none) rest) :
    e = .lit none := by
  unfold adjust at h
  obtain ⟨e', h1, _, h2⟩ := adj_total e (3 * e.nodes + 1) (by omega)
  rw [h1] at h
  have he : e' = .lit none := by cases h; rfl
  subst he
  simp only [Expr.nodes] at h2
  cases e with
  | lit v => simp [adjustPrecedence] at h1; rw [h1]
  | ref _ _ => simp [adjustPrecedence] at h1
  | subquery _ _ _ _ => simp [adjustPrecedence] at h1
  | unary _ e => have := nodes_pos e; simp only [Expr.nodes] at h2; omega
  | binary _ l r => have := nodes_pos l; simp only [Expr.nodes] at h2; omega
  | call name args =>
    simp only [adjustPrecedence] at h1
    split at h1 <;> simp at h1

theorem operator_null {env : ParseEnv} {p : Parsers} {e : Expr} :
    Post (p.operator env e) (fun e' => e' = .lit none → e = .lit none) := by
  refine .bindAny fun o => ?_
  cases o with
  | none =>
    refine .bindAny fun o => ?_
    cases o with
    | none => exact .pure id
    | some id =>
      refine .ite (fun _ => .bindAny fun _ => .pure (by simp)) fun _ => .ite (fun _ => ?_)
        fun _ => ?_
      · refine .bindAny fun _ => .ite (fun _ => .bindAny fun _ => .pure (by simp)) fun _ => ?_
        exact .bindAny fun _ => .pure (fun h => h)
      · refine .bindAny fun not => .bindAny fun _ => .pure ?_
        cases not <;> simp
  | some o =>
    obtain ⟨op, bool⟩ := o
    refine .bindAny fun o => ?_
    cases o with
    | none => exact .bindAny fun _ => .pure (by simp)
    | some id => exact .ite (fun _ => .bindAny fun _ => .pure (by simp)) (fun _ => .error)

theorem call_null {p : Parsers} {id : Identifier} : Post (p.call id) (· ≠ .lit none) := by
  refine .bindAny fun _ => .ite (fun _ => ?_) fun _ => ?_
  · refine .bindAny fun _ => .ite (fun _ => .pure (by simp)) fun _ => .ite (fun _ => ?_)
      fun _ => ?_
    all_goals
      refine .bindAny fun _ => .ite (fun _ => ?_) fun _ => ?_
      all_goals exact .bindAny fun _ => .pure (by simp)
  · exact .bindAny fun _ => .pure (by simp)

theorem errorGot_post {α : Type} {t : Token} {I : α → Prop} : Post (P.errorGot t : P α) I := by
  unfold P.errorGot
  exact .ite (fun _ => .crash) (fun _ _ _ _ h => nomatch h)

theorem operand_null {p : Parsers} {ts rest : List Token}
    (h : p.operand ts = .ok (.lit none) rest) : ts.head? = some (.reserved Kw.NULL) := by
  unfold Parsers.operand at h
  change P.bind P.next _ ts = _ at h
  unfold P.bind at h
  split at h
  · rename_i t r ht
    by_cases hn : t = .reserved Kw.NULL
    · subst hn
      cases ts with
      | nil => simp [P.next] at ht
      | cons t ts =>
        cases t with
        | error b => cases b <;> simp [P.next] at ht
        | _ => simp [P.next] at ht ⊢; try exact ht.1
    · exfalso
      refine Post.ne ?_ h
      split
      · rename_i id
        refine .ite (fun _ => .pure (by simp)) fun _ => .ite (fun _ => .pure (by simp)) fun _ =>
          .ite (fun h => ?_) fun _ => .ite (fun _ => .bindAny fun _ => .pure (by simp)) fun _ =>
            .ite (fun _ => .bindAny fun _ => .pure (by simp)) fun _ => .error
        subst h
        exact absurd rfl hn
      · exact .pure (by simp)
      · exact .pure (by simp)
      · exact .pure (by simp)
      · exact .pure (by simp)
      · exact call_null
      · refine .ite (fun _ => .bindAny fun _ => .pure (by simp)) fun _ => .ite (fun _ => ?_)
          fun _ => errorGot_post
        refine .bindAny fun o => ?_
        cases o with
        | some q => exact .bindAny fun _ => .pure (by simp)
        | none => exact .bindAny fun _ => .bindAny fun _ => .pure (by simp)
  · cases h
  · cases h
  · cases h

theorem subExpr_null {env : ParseEnv} : ∀ {n : Nat} {ts rest : List Token},
    (parsers env n).subExpr ts = .ok (.lit none) rest →
      ts.head? = some (.reserved Kw.NULL)
  | 0, _, _, h => nomatch h
  | n + 1, ts, rest, h => by
    change P.bind (parsers env n).operand _ ts = _ at h
    unfold P.bind at h
    split at h
    · rename_i e r he
      have := operator_null _ _ _ h rfl
      subst this
      exact operand_null he
    · cases h
    · cases h
    · cases h

namespace GoodParsers
open Runs

variable {B : List Token} {n : Nat} (hB : Token.eof ∉ B)
include hB

theorem settingValue {env : ParseEnv} {ts : List Token} (hs : ts <:+ B) (hl : ts.length < n)
    (hn : ts.head? ≠ some (.reserved Kw.NULL)) :
    Outcome B ts.length NoC ((Maho.parsers env n).settingValue env ts) := by
  have g := (GoodParsers.parsers (env := env) hB n).expr ts hs hl
  show Outcome B ts.length NoC (P.bind (Maho.parsers env n).expr _ ts)
  unfold P.bind
  cases he : (Maho.parsers env n).expr ts with
  | panic => rw [he] at g; exact g
  | stuck => rw [he] at g; exact g
  | fail e rest => rw [he] at g; exact g
  | ok e rest =>
    rw [he] at g
    simp only
    split
    · exact ⟨g.1, g.2.1, fun h => h.elim⟩
    · exact ⟨g.1, g.2.1, fun h => h.elim⟩
    · exfalso
      change P.bind (Maho.parsers env n).subExpr _ ts = _ at he
      unfold P.bind at he
      split at he
      · rename_i e r hr
        have := adjust_null he
        subst this
        exact hn (subExpr_null hr)
      · cases he
      · cases he
      · cases he
    · exact g.1

theorem use {env : ParseEnv} {ts : List Token} (hs : ts <:+ B) (hl : ts.length < n)
    (hn : ts.head? ≠ some (.reserved Kw.NULL)) :
    Outcome B ts.length NoC ((Maho.parsers env n).use env ts) := by
  have g := settingValue (env := env) hB hs hl hn
  show Outcome B ts.length NoC (P.bind ((Maho.parsers env n).settingValue env) _ ts)
  unfold P.bind
  split <;> rename_i h <;> rw [h] at g
  · exact g
  · exact g
  · exact g
  · exact g

theorem set {env : ParseEnv} {ts : List Token} (hs : ts <:+ B) (hl : ts.length < n)
    (hn : ∀ v t rest, ts ≠ v :: t :: .reserved Kw.NULL :: rest) :
    Outcome B ts.length NoC ((Maho.parsers env n).set env ts) := by
  -- what follows the variable
  have h2 : ∀ var v ts2, ts = v :: ts2 → Outcome B ts.length NoC ((do
      let equal ← P.maybeToken Tok.equal
      let _ ← if equal then pure 0 else P.expectReserved [Kw.TO]
      let value ← (Maho.parsers env n).settingValue env
      pure (Stmt.set var value) : P Stmt) ts2) := by
    rintro var v ts2 rfl
    have hs2 := suffix_tail hs
    have hl2 : ts2.length + 1 < n := by simpa using hl
    have h3 : ∀ t rest, ts2 = t :: rest → Outcome B (ts2.length + 1) NoC ((do
        let value ← (Maho.parsers env n).settingValue env
        pure (Stmt.set var value) : P Stmt) rest) := by
      rintro t rest rfl
      have hs3 := suffix_tail hs2
      have hl3 : rest.length + 2 < n := by simpa using hl2
      have g := settingValue (env := env) (n := n) hB hs3 (by omega) (by
        intro h
        cases rest with
        | nil => simp at h
        | cons a rest =>
          simp at h
          subst h
          exact hn _ _ _ rfl)
      show Outcome B _ NoC (P.bind ((Maho.parsers env n).settingValue env) _ rest)
      unfold P.bind
      split <;> rename_i h <;> rw [h] at g
      · exact ⟨g.1, by have := g.2.1; simp; omega, fun h => h.elim⟩
      · exact g
      · exact g
      · exact g
    show Outcome B _ NoC (P.bind (P.maybeToken _) _ ts2)
    rcases maybeToken_cases (mt := Tok.equal) hB hs2 (by simp) with
      ⟨rest, f, f2⟩ | ⟨rest, f, rfl⟩ | f
    · simp only [P.bind, f]
      exact f2
    · simp only [P.bind, f]
      exact h3 _ _ rfl
    · simp only [P.bind, f]
      show Outcome B _ NoC (P.bind (P.bind P.next _) _ ts2)
      cases ts2 with
      | nil => exact hs2
      | cons t rest =>
        unfold P.bind
        rw [next_cons hB hs2]
        by_cases he : t = .error false
        · rw [if_pos he]
          exact suffix_tail hs2
        · rw [if_neg he]
          have ht := (noEof_ne hB hs2).1
          by_cases het : t = .error true
          · have := ht het
            subst het
            exact this
          simp only
          split
          all_goals
            rename_i hx
            split at hx
            · split at hx
              · cases hx
                try exact h3 _ _ rfl
              · simp only [P.errorGot, if_neg het, P.errorAt] at hx
                cases hx
                try exact suffix_tail hs2
            · simp only [P.errorGot, if_neg het, P.errorAt] at hx
              cases hx
              try exact suffix_tail hs2
  show Outcome B _ NoC (P.bind (P.optionalReservedId _) _ ts)
  rcases optionalReservedId_cases (ids := [Kw.DATABASE, Kw.SCHEMA]) hB hs with
    ⟨rest, f, f2⟩ | ⟨id, rest, f, f2, f3⟩ | ⟨f, f2⟩
  · simp only [P.bind, f]
    exact f2
  · simp only [P.bind, f]
    exact h2 id _ rest f3
  · simp only [P.bind, f]
    show Outcome B _ NoC (P.bind (P.bind P.next _) _ ts)
    cases ts with
    | nil => exact hs
    | cons t rest =>
      unfold P.bind
      rw [next_cons hB hs]
      by_cases he : t = .error false
      · rw [if_pos he]
        exact suffix_tail hs
      · rw [if_neg he]
        have ht := (noEof_ne hB hs).1
        by_cases het : t = .error true
        · have := ht het
          subst het
          exact this
        simp only
        split
        all_goals
          rename_i hx
          split at hx
          · cases hx
            try exact h2 _ _ _ rfl
          · simp only [P.errorGot, if_neg het, P.errorAt] at hx
            cases hx
            try exact suffix_tail hs

end GoodParsers

theorem Clean.suffix {B ts : List Token} (hB : Clean B) (h : ts <:+ B) : Clean ts :=
  ⟨fun h1 => hB.1 (h.subset h1), fun h1 => hB.2 (h.subset h1)⟩

theorem stmtEnd_reserved {env : ParseEnv} {n : Nat} {id : Identifier} {ts : List Token} :
    (parsers env n).stmtEnd env (.reserved id :: ts) =
      if id ∈ stmtKeywords then (do
        let s ← (parsers env n).afterKeyword env id
        P.expectEndOfStatement
        pure s : P (Option Stmt)) ts
      else .fail false ts := by
  show P.bind (P.bind (fun ts => P.expectReserved _ (.reserved id :: ts)) _) _ ts = _
  have h2 : ∀ ids, P.expectReserved ids (.reserved id :: ts) =
      if id ∈ ids then .ok id ts else .fail false ts := by
    intro ids
    show (if id ∈ ids then pure id else P.errorGot (.reserved id) : P Identifier) ts = _
    split
    · rfl
    · rfl
  simp only [P.bind, h2]
  by_cases hid : id ∈ stmtKeywords
  · simp only [if_pos hid]
    rfl
  · simp only [if_neg hid]

/-- The end of a statement. -/
theorem end_outcome {ts : List Token} (hB : Token.eof ∉ ts) {m : P (Option Stmt)}
    (h : Outcome ts ts.length NoC (m ts)) :
    Outcome ts ts.length NoC ((do
      let s ← m
      P.expectEndOfStatement
      pure s : P (Option Stmt)) ts) := by
  show Outcome ts ts.length NoC (P.bind m _ ts)
  unfold P.bind
  split <;> rename_i h2 <;> rw [h2] at h
  · rename_i s rest
    have : Runs ts (ts.length + 1) (do
        P.expectEndOfStatement
        pure s : P (Option Stmt)) NoC :=
      .bindNo (Runs.expectEndOfStatement hB) fun _ => .pure (fun h => h)
    exact (this rest h.1 (by have := h.2.1; omega)).mono h.2.1 (fun _ h => Or.inl h)
  · exact h
  · exact h
  · exact h

/-- A statement and its end: a token is taken. -/
theorem stmtEnd_outcome {env : ParseEnv} {n : Nat} {t : Token} {ts : List Token}
    (hB : Token.eof ∉ t :: ts) (ht1 : t ≠ .error true) (hl : ts.length < n)
    (hn : ¬ NullSetting (t :: ts)) :
    Outcome ts ts.length NoC ((parsers env n).stmtEnd env (t :: ts)) := by
  have hB2 : Token.eof ∉ ts := fun h => hB (List.mem_cons_of_mem _ h)
  have hfail : Outcome ts ts.length NoC (.fail false ts : PRes (Option Stmt)) :=
    List.suffix_refl _
  have ht2 := (noEof_ne hB (List.suffix_refl _)).2
  cases t with
  | eof => exact absurd rfl ht2
  | error b =>
    cases b with
    | true => exact absurd rfl ht1
    | false => exact hfail
  | endOfStatement =>
    exact end_outcome hB2 (m := pure none) ⟨List.suffix_refl _, Nat.le_refl _, fun h => h.elim⟩
  | reserved id =>
    rw [stmtEnd_reserved]
    split
    · refine end_outcome hB2 ?_
      by_cases hset : id = Kw.SET
      · subst hset
        have g := GoodParsers.set (env := env) (n := n) hB2 (List.suffix_refl ts) hl (by
          rintro v t rest rfl
          exact hn (Or.inr ⟨v, t, rest, rfl⟩))
        show Outcome ts ts.length NoC (P.bind ((parsers env n).set env) _ ts)
        unfold P.bind
        split <;> rename_i h <;> rw [h] at g <;> exact g
      · by_cases huse : id = Kw.USE
        · subst huse
          have g := GoodParsers.use (env := env) (n := n) hB2 (List.suffix_refl ts) hl (by
            intro h
            cases ts with
            | nil => simp at h
            | cons a rest =>
              simp at h
              subst h
              exact hn (Or.inl ⟨rest, rfl⟩))
          show Outcome ts ts.length NoC (P.bind ((parsers env n).use env) _ ts)
          unfold P.bind
          split <;> rename_i h <;> rw [h] at g <;> exact g
        · exact GoodParsers.afterKeyword hB2 (GoodParsers.parsers hB2 n) hset huse ts (List.suffix_refl _) hl
    · exact hfail
  | _ => exact hfail

/-- Whatever the value of a variable is, `m` panics, or returns or fails with a part of the tokens
left. -/
def Weak (B : List Token) (n : Nat) {α : Type} (m : P α) : Prop :=
  ∀ ts, ts <:+ B → ts.length < n → m ts = .panic ∨ Outcome B ts.length NoC (m ts)

theorem Weak.of {B : List Token} {n : Nat} {α : Type} {m : P α} (h : Runs B n m NoC) : Weak B n m :=
  fun ts h1 h2 => .inr (h ts h1 h2)

theorem Weak.bind {B : List Token} {n : Nat} {α β : Type} {m : P α} {f : α → P β} (hm : Weak B n m)
    (hf : ∀ a, Weak B n (f a)) : Weak B n (m >>= f) := by
  intro ts h1 h2
  show P.bind m f ts = .panic ∨ Outcome B ts.length NoC (P.bind m f ts)
  unfold P.bind
  rcases hm ts h1 h2 with h | h
  · rw [h]
    exact .inl rfl
  · cases he : m ts with
    | panic => exact .inl rfl
    | stuck => rw [he] at h; exact h.elim
    | fail e rest => rw [he] at h; exact .inr h
    | ok a rest =>
      rw [he] at h
      rcases hf a rest h.1 (by have := h.2.1; omega) with h3 | h3
      · exact .inl h3
      · exact .inr (h3.mono h.2.1 (fun _ h => h.elim))

section
variable {B : List Token} {n : Nat} {env : ParseEnv} (hB : Token.eof ∉ B)
include hB

theorem weak_settingValue : Weak B n ((parsers env n).settingValue env) := by
  refine .bind (.of (GoodParsers.parsers hB n).expr.weaken) fun e => ?_
  split
  · exact .of (.pure fun h => h)
  · exact .of (.pure fun h => h)
  · exact fun _ _ _ => .inl rfl
  · exact .of .error

theorem weak_use : Weak B n ((parsers env n).use env) :=
  .bind (weak_settingValue hB) fun _ => .of (.pure fun h => h)

theorem weak_set : Weak B n ((parsers env n).set env) := by
  have hv : ∀ var, Weak B n (do
      let value ← (parsers env n).settingValue env
      pure (Stmt.set var value)) :=
    fun _ => .bind (weak_settingValue hB) fun _ => .of (.pure fun h => h)
  have ht : ∀ var, Weak B n (do
      let equal ← P.maybeToken Tok.equal
      let _ ← if equal then pure 0 else P.expectReserved [Kw.TO]
      let value ← (parsers env n).settingValue env
      pure (Stmt.set var value)) := fun var => by
    refine .bind (.of (Runs.maybeToken hB (by simp)).weaken) fun b => ?_
    cases b with
    | true => exact hv var
    | false => exact .bind (.of (Runs.expectReserved hB).weaken) fun _ => hv var
  refine .bind (.of (Runs.optionalReservedId hB).weaken) fun o => ?_
  cases o with
  | some id => exact ht id
  | none => exact .bind (.of (Runs.expectIdentifier hB).weaken) fun id => ht id

end

/-- The same for any statement: it panics only for a token with a nil error, or for `NULL` as the value
of a variable. -/
theorem stmtEnd_cases {env : ParseEnv} {n : Nat} {t : Token} {ts : List Token}
    (hB : Token.eof ∉ t :: ts) (hl : ts.length < n) :
    ((parsers env n).stmtEnd env (t :: ts) = .panic ∧
      (Token.error true ∈ t :: ts ∨ NullSetting (t :: ts))) ∨
    ((parsers env n).stmtEnd env (t :: ts) ≠ .panic ∧
      Outcome ts ts.length NoC ((parsers env n).stmtEnd env (t :: ts))) := by
  have hB2 : Token.eof ∉ ts := fun h => hB (List.mem_cons_of_mem _ h)
  by_cases ht1 : t = .error true
  · subst ht1
    exact .inl ⟨rfl, .inl List.mem_cons_self⟩
  · have key : ∀ r : PRes (Option Stmt), r = .panic ∨ Outcome ts ts.length NoC r →
        (r = .panic → Token.error true ∈ t :: ts ∨ NullSetting (t :: ts)) →
        (r = .panic ∧ (Token.error true ∈ t :: ts ∨ NullSetting (t :: ts))) ∨
          (r ≠ .panic ∧ Outcome ts ts.length NoC r) := by
      intro r h1 h2
      by_cases hp : r = .panic
      · exact .inl ⟨hp, h2 hp⟩
      · exact .inr ⟨hp, h1.resolve_left hp⟩
    by_cases hn : NullSetting (t :: ts)
    · refine key _ ?_ fun _ => .inr hn
      have hw : ∀ m : P Stmt, Weak ts n m →
          ((do let s ← some <$> m; P.expectEndOfStatement; pure s : P (Option Stmt)) ts = .panic ∨
            Outcome ts ts.length NoC
              ((do let s ← some <$> m; P.expectEndOfStatement; pure s : P (Option Stmt)) ts)) := by
        intro m hm
        refine Weak.bind (Weak.bind hm fun _ => .of (.pure fun h => h)) (fun _ => Weak.bind
          (.of (Runs.expectEndOfStatement hB2)) fun _ => .of (.pure fun h => h)) ts
          (List.suffix_refl _) hl
      rcases hn with ⟨rest, h⟩ | ⟨v, t2, rest, h⟩
      · cases h
        rw [stmtEnd_reserved]
        exact hw _ (weak_use hB2)
      · cases h
        rw [stmtEnd_reserved]
        exact hw _ (weak_set hB2)
    · have h := stmtEnd_outcome (env := env) hB ht1 hl hn
      refine key _ (.inr h) fun hp => ?_
      rw [hp] at h
      exact .inl (List.mem_cons_of_mem _ h)

/-- The last part of `Parse`: not a panic, and a token is taken. -/
theorem parseRecover_ok {env : ParseEnv} {t : Token} {ts : List Token} (hB : Clean (t :: ts))
    (hn : ¬ NullSetting (t :: ts)) :
    ((∃ s, (parseRecover env (t :: ts)).1 = .stmt s) ∨ (parseRecover env (t :: ts)).1 = .error) ∧
      (parseRecover env (t :: ts)).2.2 <:+ ts := by
  have h := stmtEnd_outcome (env := env) (n := (t :: ts).length + 1) hB.2
    (hB.ne (List.suffix_refl _)).1 (by simp; omega) hn
  unfold parseRecover parseStmtEnd
  split <;> rename_i h2 <;> rw [h2] at h
  · exact ⟨Or.inl ⟨_, rfl⟩, h.1⟩
  · exact ⟨Or.inr rfl, h⟩
  · exact absurd (List.mem_cons_of_mem _ h) hB.1
  · exact h.elim

/-- The same for any tokens: a panic only for a token with a nil error, or for `NULL` as the value of a
variable. -/
theorem parseRecover_cases {env : ParseEnv} {t : Token} {ts : List Token} (hB : Token.eof ∉ t :: ts) :
    ((parseRecover env (t :: ts)).1 = .panic ∧
      (Token.error true ∈ t :: ts ∨ NullSetting (t :: ts))) ∨
    (((∃ s, (parseRecover env (t :: ts)).1 = .stmt s) ∨ (parseRecover env (t :: ts)).1 = .error) ∧
      (parseRecover env (t :: ts)).2.2 <:+ ts) := by
  have h := stmtEnd_cases (env := env) (n := (t :: ts).length + 1) hB (by simp; omega)
  unfold parseRecover parseStmtEnd
  rcases h with ⟨h1, h⟩ | ⟨h1, h⟩
  · rw [h1]
    exact .inl ⟨rfl, h⟩
  · right
    split <;> rename_i h2 <;> rw [h2] at h
    · exact ⟨Or.inl ⟨_, rfl⟩, h.1⟩
    · exact ⟨Or.inr rfl, h⟩
    · exact absurd h2 h1
    · exact h.elim

theorem parseRecover_nil {env : ParseEnv} : parseRecover env [] = (.error, true, []) := by
  unfold parseRecover
  have : parseStmtEnd env [] = .fail false [] := rfl
  rw [this]
  rfl

theorem skipStatement_spec : ∀ ts : List Token, Token.eof ∉ ts →
    (∃ b rest, skipStatement ts = (some b, rest) ∧ rest <:+ ts ∧ (b = true → rest.length < ts.length))
      ∨ (skipStatement ts = (none, afterSemicolon ts) ∧ afterSemicolon ts <:+ ts ∧
        (afterSemicolon ts).length < ts.length)
  | [], _ => Or.inl ⟨false, [], rfl, List.suffix_refl _, by simp⟩
  | t :: ts, hB => by
    have hne := noEof_ne hB (List.suffix_refl _)
    have ih := skipStatement_spec ts fun h => hB (List.mem_cons_of_mem _ h)
    have hc := List.suffix_cons t ts
    have key : skipStatement (t :: ts) = skipStatement ts → afterSemicolon (t :: ts) =
        afterSemicolon ts → (∃ b rest, skipStatement (t :: ts) = (some b, rest) ∧
          rest <:+ t :: ts ∧ (b = true → rest.length < (t :: ts).length)) ∨
        (skipStatement (t :: ts) = (none, afterSemicolon (t :: ts)) ∧
          afterSemicolon (t :: ts) <:+ t :: ts ∧
          (afterSemicolon (t :: ts)).length < (t :: ts).length) := by
      intro h1 h2
      rw [h1, h2]
      rcases ih with ⟨b, rest, g1, g2, g3⟩ | ⟨g1, g2, g3⟩
      · exact Or.inl ⟨b, rest, g1, g2.trans hc, fun h => by have := g3 h; simp; omega⟩
      · exact Or.inr ⟨g1, g2.trans hc, by simp; omega⟩
    cases t with
    | eof => exact absurd rfl hne.2
    | error b =>
      cases b with
      | true => exact key rfl rfl
      | false => exact Or.inl ⟨true, ts, rfl, hc, by simp⟩
    | endOfStatement => exact Or.inr ⟨rfl, hc, by simp [afterSemicolon]⟩
    | _ => exact key rfl rfl

/-! ### C65 -/

/-- If it is a definition of a table, it is consistent. -/
def TableOk (s : Stmt) : Prop := ∀ c, s = .createTable c → Consistent c

theorem Post.map {α β : Type} {m : P α} {f : α → β} {I : β → Prop} (h : Post m (fun a => I (f a))) :
    Post (f <$> m) I := bind h fun _ ha => pure ha

theorem Post.errorAt {α : Type} {t : Token} {I : α → Prop} : Post (P.errorAt t : P α) I :=
  fun _ _ _ h => nomatch h

/-- The end of a method is reached with another statement, or it fails. -/
macro "no_table" : tactic => `(tactic| repeat (first
  | exact Post.pure (by intro c h; cases h)
  | exact Post.error
  | exact Post.errorAt
  | exact errorGot_post
  | exact Post.crash
  | refine Post.bindAny fun _ => ?_
  | refine Post.ite (fun _ => ?_) (fun _ => ?_)
  | split))

variable {env : ParseEnv} {p : Parsers}

theorem create_post : Post (p.create env) TableOk := by
  unfold Parsers.create parseCreateDatabase parseCreateIndex
  refine Post.bindAny fun id => ?_
  refine Post.ite (fun _ => by no_table) fun _ => ?_
  refine Post.ite (fun _ => by no_table) fun _ => ?_
  refine Post.ite (fun _ => by no_table) fun _ => ?_
  refine Post.ite (fun _ => ?_) fun _ => by no_table
  exact Post.bind createTable_post fun s hs => Post.pure (by intro c h; cases h; exact hs)

theorem alter_post : Post parseAlterTable TableOk := by unfold parseAlterTable; no_table
theorem copy_post : Post parseCopy TableOk := by unfold parseCopy; no_table
theorem delete_post : Post p.delete TableOk := by unfold Parsers.delete; no_table
theorem drop_post : Post parseDrop TableOk := by
  unfold parseDrop parseDropDatabase parseDropIndex parseDropSchema parseDropTable; no_table
theorem explain_post : Post p.explain TableOk := by unfold Parsers.explain; no_table
theorem insert_post : Post p.insert TableOk := by unfold Parsers.insert; no_table
theorem set_post : Post (p.set env) TableOk := by unfold Parsers.set; no_table
theorem update_post : Post p.update TableOk := by unfold Parsers.update; no_table
theorem use_post : Post (p.use env) TableOk := by unfold Parsers.use; no_table

theorem afterKeyword_post {id : Identifier} :
    Post (p.afterKeyword env id) (fun o => ∀ s, o = some s → TableOk s) := by
  have some_post : ∀ {m : P Stmt}, Post m TableOk →
      Post (some <$> m) (fun o => ∀ s, o = some s → TableOk s) := fun h =>
    .map (h.mono fun a ha s hs => by cases hs; exact ha)
  have query_post : ∀ {m : P Query},
      Post ((fun q => some (Stmt.query q)) <$> m) (fun o => ∀ s, o = some s → TableOk s) :=
    .map (Post.any.mono fun a _ s hs => by cases hs; intro c h; cases h)
  have pure_post : ∀ {s : Stmt}, TableOk s →
      Post (pure (some s) : P (Option Stmt)) (fun o => ∀ s, o = some s → TableOk s) := fun h =>
    .pure fun s hs => by cases hs; exact h
  unfold Parsers.afterKeyword
  refine .ite (fun _ => .bindAny fun _ => some_post alter_post) fun _ => ?_
  refine .ite (fun _ => pure_post (by intro c h; cases h)) fun _ => ?_
  refine .ite (fun _ => pure_post (by intro c h; cases h)) fun _ => ?_
  refine .ite (fun _ => some_post copy_post) fun _ => ?_
  refine .ite (fun _ => some_post create_post) fun _ => ?_
  refine .ite (fun _ => .bindAny fun _ => some_post delete_post) fun _ => ?_
  refine .ite (fun _ => some_post drop_post) fun _ => ?_
  refine .ite (fun _ => some_post explain_post) fun _ => ?_
  refine .ite (fun _ => .bindAny fun _ => some_post insert_post) fun _ => ?_
  refine .ite (fun _ => pure_post (by intro c h; cases h)) fun _ => ?_
  refine .ite (fun _ => query_post) fun _ => ?_
  refine .ite (fun _ => some_post set_post) fun _ => ?_
  refine .ite (fun _ => query_post) fun _ => ?_
  refine .ite (fun _ => .bindAny fun _ => pure_post (by intro c h; cases h)) fun _ => ?_
  refine .ite (fun _ => some_post update_post) fun _ => ?_
  refine .ite (fun _ => some_post use_post) fun _ => ?_
  refine .ite (fun _ => query_post) fun _ => ?_
  exact .pure fun s hs => by cases hs

theorem parseStmtEnd_post :
    Post (parseStmtEnd env) (fun o => ∀ s, o = some s → TableOk s) := by
  intro ts a rest h
  have : Post ((parsers env (ts.length + 1)).stmtEnd env) (fun o => ∀ s, o = some s → TableOk s) := by
    unfold Parsers.stmtEnd Parsers.stmt
    refine .bind (I := fun o => ∀ s, o = some s → TableOk s) ?_ fun o ho => .bindAny fun _ => .pure ho
    refine .bindAny fun e => .ite (fun _ => .pure fun s hs => by cases hs) fun _ => ?_
    exact .bindAny fun _ => afterKeyword_post
  exact this ts a rest h

theorem parseRecover_table {ts rest : List Token} {f : Bool} {s : CreateTable}
    (h : parseRecover env ts = (.stmt (some (.createTable s)), f, rest)) : Consistent s := by
  unfold parseRecover at h
  split at h
  · rename_i s2 rest2 h2
    cases h
    exact parseStmtEnd_post _ _ _ h2 _ rfl _ rfl
  · cases h
  · cases h
  · cases h

theorem parse_table {failed : Bool} {ts rest : List Token} {f : Bool} {s : CreateTable}
    (h : parse env failed ts = (.stmt (some (.createTable s)), f, rest)) : Consistent s := by
  unfold parse at h
  split at h
  · cases h
  · cases h
  · cases h
  · split at h
    · split at h
      · cases h
      · cases h
      · exact parseRecover_table h
    · exact parseRecover_table h

end Maho
