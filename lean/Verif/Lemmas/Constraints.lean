import Verif.Spec.Constraints
import Verif.Lemmas.Fields
import Verif.Lemmas.CompleteStmt
/-
Lemmas on the names of constraints, for C88.
-/
namespace Maho.Cons
open Spec Flds

/-! ### What is accepted -/

theorem pairwise_snoc {α : Type} {R : α → α → Prop} {l : List α} {a : α} (h : l.Pairwise R)
    (ha : ∀ x ∈ l, R x a) : (l ++ [a]).Pairwise R := by
  rw [List.pairwise_append]
  exact ⟨h, List.pairwise_singleton _ _, fun x hx y hy => by
    rw [List.mem_singleton.1 hy]; exact ha x hx⟩

theorem onColumn_new {s s' : CreateTable} {ct : ConstraintType} {n : Identifier}
    (hct : ct = .default ∨ ct = .notNull) (h : NamedOnColumn s ct n s')
    (hs : s.constraints.Pairwise NewAfter) : s'.constraints.Pairwise NewAfter := by
  cases h with
  | unnamed => exact hs
  | named _ hn =>
    refine pairwise_snoc hs fun c hc => ⟨fun _ => (hn c hc).1, ?_, ?_⟩
    · rintro (h | h) <;> rcases hct with rfl | rfl <;> simp at h
    · rintro ⟨-, h⟩
      rcases hct with rfl | rfl <;> simp at h

theorem key_new {s : CreateTable} {ct : ConstraintType} {name : Identifier} {key : IndexKey}
    (h : NewKey s ct name key) (hs : s.constraints.Pairwise NewAfter) (i : Int) (e : Option Expr) :
    (withConstraint s ⟨ct, name, i, key, e⟩).constraints.Pairwise NewAfter :=
  pairwise_snoc hs fun c hc =>
    ⟨fun _ => (h c hc).1, fun _ => (h c hc).2.2, (h c hc).2.1⟩

theorem check_new {s : CreateTable} (n : Identifier) (i : Int) (key : IndexKey) (e : Option Expr)
    (hs : s.constraints.Pairwise NewAfter) :
    (withConstraint s ⟨.check, n, i, key, e⟩).constraints.Pairwise NewAfter :=
  pairwise_snoc hs fun c _ => ⟨fun h => absurd rfl h, by rintro (h | h) <;> simp at h, by simp⟩

theorem column_new {env : ParseEnv} {E : Expr → List Token → Prop} {col : Identifier}
    {x y : CreateTable × ColumnType × Option Expr} {ts : List Token}
    (h : ColumnConstraintForm env E col x ts y) (hs : x.1.constraints.Pairwise NewAfter) :
    y.1.constraints.Pairwise NewAfter := by
  cases h with
  | default _ h2 _ => exact onColumn_new (.inl rfl) h2 hs
  | notNull _ _ h3 => exact onColumn_new (.inr rfl) h3 hs
  | primary _ h => exact key_new h hs _ _
  | unique _ h => exact key_new h hs _ _
  | check _ _ => exact check_new _ _ _ _ hs
  | references _ _ _ _ => exact hs

theorem columns_new {env : ParseEnv} {E : Expr → List Token → Prop} {col : Identifier}
    {x y : CreateTable × ColumnType × Option Expr} {ts : List Token}
    (h : Repeated (ColumnConstraintForm env E col) x ts y) (hs : x.1.constraints.Pairwise NewAfter) :
    y.1.constraints.Pairwise NewAfter := by
  induction h with
  | nil => exact hs
  | cons h1 _ ih => exact ih (column_new h1 hs)

theorem element_new {env : ParseEnv} {E : Expr → List Token → Prop} {s s' : CreateTable}
    {ts : List Token} (h : TableElement env E s ts s') (hs : s.constraints.Pairwise NewAfter) :
    s'.constraints.Pairwise NewAfter := by
  cases h with
  | primary _ _ h => exact key_new h hs _ _
  | unique _ _ h => exact key_new h hs _ _
  | check _ _ => exact check_new _ _ _ _ hs
  | foreignKey _ _ => exact hs
  | column _ _ h => exact columns_new h hs

theorem table_new {env : ParseEnv} {E : Expr → List Token → Prop} {s s' : CreateTable}
    {ts : List Token} (h : Changes (TableElement env E) s ts s')
    (hs : s.constraints.Pairwise NewAfter) : s'.constraints.Pairwise NewAfter := by
  induction h with
  | one h => exact element_new h hs
  | cons h1 _ ih => exact ih (element_new h1 hs)

theorem stmt_new {env : ParseEnv} {E : Expr → List Token → Prop} {Q : Query → List Token → Prop}
    {s : CreateTable} {ts : List Token} (h : StmtForm env E Q (.createTable s) ts) :
    s.constraints.Pairwise NewAfter := by
  cases h with
  | createTable _ _ h => exact table_new h List.Pairwise.nil

/-! ### Names that are made -/

theorem keyText_joined (env : ParseEnv) (cols : List Identifier) (p : Bool) :
    keyText env cols p = joined 95#8 (cols.map env.string ++ [ascii (keySuffix p)]) := by
  unfold keyText
  induction cols with
  | nil => rfl
  | cons c cs ih =>
    simp only [List.map_cons, List.flatten_cons, List.append_assoc, List.cons_append, ih]
    cases cs <;> simp [joined]

theorem suffix_clean (p : Bool) : ∀ b ∈ ascii (keySuffix p), b ≠ 95#8 := by
  cases p <;> decide

theorem suffix_inj {p q : Bool} (h : ascii (keySuffix p) = ascii (keySuffix q)) : p = q := by
  revert h; cases p <;> cases q <;> decide

theorem small_noUnderscore {s : Bytes} (h : SmallName s) : ∀ b ∈ s, b ≠ 95#8 := by
  rintro b hb rfl
  have := h _ hb
  revert this
  decide

theorem keyText_inj {env : ParseEnv} {cs ds : List Identifier} {p q : Bool}
    (hc : ∀ c ∈ cs, SmallName (env.string c)) (hd : ∀ c ∈ ds, SmallName (env.string c))
    (h : keyText env cs p = keyText env ds q) : cs.map env.string = ds.map env.string ∧ p = q := by
  rw [keyText_joined, keyText_joined] at h
  have clean : ∀ (es : List Identifier) (r : Bool), (∀ c ∈ es, SmallName (env.string c)) →
      ∀ w ∈ es.map env.string ++ [ascii (keySuffix r)], ∀ b ∈ w, b ≠ 95#8 := by
    intro es r he w hw
    rcases List.mem_append.1 hw with hw | hw
    · obtain ⟨c, hc, rfl⟩ := List.mem_map.1 hw
      exact small_noUnderscore (he c hc)
    · rw [List.mem_singleton.1 hw]
      exact suffix_clean r
  have a := split_joined 95#8 _ (by simp) (clean cs p hc)
  have b := split_joined 95#8 _ (by simp) (clean ds q hd)
  rw [h, b] at a
  have e := List.append_inj' a (by simp)
  exact ⟨e.1.symm, suffix_inj (by simpa using e.2.symm)⟩

theorem keyText_plain {env : ParseEnv} {cs : List Identifier} (p : Bool)
    (hc : ∀ c ∈ cs, SmallName (env.string c)) : ∀ b ∈ keyText env cs p,
      (97 ≤ b.toNat ∧ b.toNat ≤ 122) ∨ (48 ≤ b.toNat ∧ b.toNat ≤ 57) ∨ b = 95#8 := by
  intro b hb
  rcases List.mem_append.1 hb with hb | hb
  · obtain ⟨l, hl, hb⟩ := List.mem_flatten.1 hb
    obtain ⟨c, hc', rfl⟩ := List.mem_map.1 hl
    rcases List.mem_append.1 hb with hb | hb
    · rcases hc c hc' b hb with h | h
      · exact .inl h
      · exact .inr (.inl h)
    · exact .inr (.inr (List.mem_singleton.1 hb))
  · left
    have : ∀ p : Bool, ∀ b ∈ ascii (keySuffix p), 97 ≤ b.toNat ∧ b.toNat ≤ 122 := by decide
    exact this p b hb

theorem madeName_eq (env : ParseEnv) (cols : List Identifier) (p : Bool) :
    madeName env 0 cols (keySuffix p) = env.id (keyText env cols p) false := by
  unfold madeName keyText
  simp only [if_true]
  congr 1

/-! ### What is not refused -/

theorem changes_snoc {σ : Type} {R : σ → List Token → σ → Prop} {s s' s'' : σ} {ts us : List Token}
    (h : Changes R s ts s') (h2 : Changes R s' us s'') : Changes R s (ts ++ Tok.comma :: us) s'' := by
  induction h with
  | one h => exact .cons h h2
  | cons h1 _ ih => simpa using Changes.cons h1 (ih h2)

/-- The definition with more columns. -/
def withColumns (s : CreateTable) (cols : List (Identifier × ColumnType)) : CreateTable :=
  { s with
    columns := s.columns ++ cols.map (·.1)
    columnTypes := s.columnTypes ++ cols.map (·.2)
    columnDefaults := s.columnDefaults ++ cols.map fun _ => none }

/-- The definition with more keys. -/
def withKeys (env : ParseEnv) (s : CreateTable) (keys : List (Bool × IndexKey)) : CreateTable :=
  { s with constraints := s.constraints ++ keys.map (keyMade env) }

theorem column_element {env : ParseEnv} {E : Expr → List Token → Prop} {s : CreateTable}
    {c : Identifier × ColumnType} {ts : List Token} (h : ColumnElement c ts) (hn : c.1 ∉ s.columns) :
    TableElement env E s ts (withColumns s [c]) := by
  obtain ⟨us, rfl, hu⟩ := h
  have := TableElement.column (env := env) (E := E) hn hu
    (Repeated.nil ({ s with columns := s.columns ++ [c.1] }, c.2, none))
  simpa [withColumns] using this

theorem columns_changes {env : ParseEnv} {E : Expr → List Token → Prop}
    {cols : List (Identifier × ColumnType)} {tss : List (List Token)}
    (h : All2 ColumnElement cols tss) (hne : cols ≠ []) (s : CreateTable)
    (hn : (s.columns ++ cols.map (·.1)).Nodup) :
    Changes (TableElement env E) s (withCommas tss) (withColumns s cols) := by
  induction h generalizing s with
  | nil => exact absurd rfl hne
  | @cons c ts cs tss h1 h2 ih =>
    have hc : c.1 ∉ s.columns := by
      intro hm
      rw [List.nodup_append] at hn
      exact hn.2.2 _ hm c.1 (by simp) rfl
    have e1 := column_element (env := env) (E := E) h1 hc
    cases h2 with
    | nil => exact .one e1
    | cons h3 h4 =>
      have e2 := ih (by simp) (withColumns s [c]) (by simpa [withColumns] using hn)
      have := Changes.cons e1 e2
      simpa [withColumns, withCommas] using this

theorem key_element {env : ParseEnv} {E : Expr → List Token → Prop} {s : CreateTable}
    {k : Bool × IndexKey} {ts : List Token} (h : KeyElement k ts)
    (hn : ∀ c ∈ s.constraints, NewAfter c (keyMade env k)) :
    TableElement env E s ts (withKeys env s [k]) := by
  obtain ⟨us, rfl, hu⟩ := h
  obtain ⟨p, key⟩ := k
  cases p with
  | true =>
    have hnew : NewKey s .primary (madeName env 0 key.columns "primary") key := fun c hc => by
      obtain ⟨a, b, d⟩ := hn c hc
      refine ⟨?_, fun h => d h, b (.inl rfl)⟩
      have := a (by simp [keyMade])
      rw [show madeName env 0 key.columns "primary" = _ from madeName_eq env key.columns true]
      exact this
    have e := TableElement.primary (env := env) (E := E) NameForm.none hu hnew
    rw [show madeName env 0 key.columns "primary" = _ from madeName_eq env key.columns true] at e
    exact e
  | false =>
    have hnew : NewKey s .unique (madeName env 0 key.columns "unique") key := fun c hc => by
      obtain ⟨a, b, d⟩ := hn c hc
      refine ⟨?_, by simp, b (.inr rfl)⟩
      have := a (by simp [keyMade])
      rw [show madeName env 0 key.columns "unique" = _ from madeName_eq env key.columns false]
      exact this
    have e := TableElement.unique (env := env) (E := E) NameForm.none hu hnew
    rw [show madeName env 0 key.columns "unique" = _ from madeName_eq env key.columns false] at e
    exact e

theorem keys_changes {env : ParseEnv} {E : Expr → List Token → Prop}
    {keys : List (Bool × IndexKey)} {tss : List (List Token)}
    (h : All2 KeyElement keys tss) (hne : keys ≠ []) (s : CreateTable)
    (hn : (s.constraints ++ keys.map (keyMade env)).Pairwise NewAfter) :
    Changes (TableElement env E) s (withCommas tss) (withKeys env s keys) := by
  induction h generalizing s with
  | nil => exact absurd rfl hne
  | @cons k ts ks tss h1 h2 ih =>
    have hc : ∀ c ∈ s.constraints, NewAfter c (keyMade env k) := by
      intro c hm
      rw [List.pairwise_append] at hn
      exact hn.2.2 c hm _ (by simp)
    have e1 := key_element (env := env) (E := E) h1 hc
    cases h2 with
    | nil => exact .one e1
    | cons h3 h4 =>
      have e2 := ih (by simp) (withKeys env s [k]) (by simpa [withKeys] using hn)
      have := Changes.cons e1 e2
      simpa [withKeys, withCommas] using this

theorem withCommas_append {xs ys : List (List Token)} (hx : xs ≠ []) (hy : ys ≠ []) :
    withCommas (xs ++ ys) = withCommas xs ++ Tok.comma :: withCommas ys := by
  induction xs with
  | nil => exact absurd rfl hx
  | cons x xs ih =>
    cases xs with
    | nil =>
      cases ys with
      | nil => exact absurd rfl hy
      | cons y ys => rfl
    | cons z zs =>
      have := ih (by simp)
      simp only [List.cons_append] at this ⊢
      simp [withCommas, this]

/-- Keys with different columns, without `_` in the names, are new. -/
theorem keys_new {env : ParseEnv} (hid : TellsApart env) {keys : List (Bool × IndexKey)}
    (hsmall : ∀ k ∈ keys, ∀ c ∈ k.2.columns, SmallName (env.string c))
    (hlen : ∀ k ∈ keys, (keyText env k.2.columns k.1).length ≤ 128)
    (hdiff : keys.Pairwise fun j k =>
      j.2.columns.map env.string ≠ k.2.columns.map env.string ∧ ¬ (j.1 = true ∧ k.1 = true)) :
    (keys.map (keyMade env)).Pairwise NewAfter := by
  rw [List.pairwise_map]
  refine List.Pairwise.imp_of_mem ?_ hdiff
  intro j k hj hk hjk
  refine ⟨fun _ he => ?_, fun _ he => ?_, fun he => ?_⟩
  · have e : keyText env j.2.columns j.1 = keyText env k.2.columns k.1 := by
      refine hid _ _ (hlen j hj) (hlen k hk) ?_ he
      intro c hc
      rcases List.mem_append.1 hc with hc | hc
      · exact keyText_plain _ (hsmall j hj) c hc
      · exact keyText_plain _ (hsmall k hk) c hc
    exact hjk.1 (keyText_inj (hsmall j hj) (hsmall k hk) e).1
  · apply hjk.1
    have := he.1
    simp only [keyMade] at this
    rw [this]
  · apply hjk.2
    simp only [keyMade] at he
    constructor
    · cases h : j.1
      · simp [h] at he
      · rfl
    · cases h : k.1
      · simp [h] at he
      · rfl

end Maho.Cons
