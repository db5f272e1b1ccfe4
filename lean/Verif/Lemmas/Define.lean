import Verif.Lemmas.Columns
import Verif.Lemmas.Lex
import Verif.Lemmas.CompleteStmt
import Verif.Model.Session
/-
Helper lemmas for C78: the tokens of the text of columns.
-/
namespace Maho
open Maho.Spec

/-- Before a rune that satisfies `ok`, and at the end, the text `l` is the tokens `ts`. -/
def LexesTo (env : ScanEnv) (ok : Nat → Prop) (l : List Nat) (ts : List Token) : Prop :=
  ∀ rest, (∀ c, rest.head? = some c → ok c) → tokenize env (l ++ rest) = ts ++ tokenize env rest

/-- A rune that ends a name. -/
def EndsName (env : ScanEnv) (c : Nat) : Prop := env.identRune c = false ∧ c ≠ 39

theorem endsName_space {env : RowEnv} {c : Nat} (h : isSpace c = true) :
    EndsName env.toScanEnv c := by
  have h1 : c ≠ 95 ∧ c ≠ 36 ∧ c ≠ 39 := by
    refine ⟨?_, ?_, ?_⟩ <;> (rintro rfl; revert h; decide)
  refine ⟨?_, h1.2.2⟩
  simp [ScanEnv.identRune, env.space_letter c h, env.space_digit c h, h1.1, h1.2.1]

theorem endsName_mark {env : ScanEnv} {c : Nat} (h : c = 40 ∨ c = 41 ∨ c = 44) :
    EndsName env c := by
  refine ⟨?_, by omega⟩
  simp [ScanEnv.identRune, letter_false env (r := c) (by omega), digit_false env (r := c) (by omega)]
  omega

theorem tokenize_blanks (env : ScanEnv) {a : List Nat} (h : Blanks a) (l : List Nat) :
    tokenize env (a ++ l) = tokenize env l := by
  induction a with
  | nil => rfl
  | cons c a ih =>
    rw [List.cons_append, tokenize_space env (h c (by simp)), ih fun r hr => h r (by simp [hr])]

/-- The token of a name. -/
def nameToken (id : Identifier) : Token := if isReserved id then .reserved id else .identifier id

theorem lexesTo_name {env : RowEnv} {id : Identifier} {l : List Nat} (h : StatementName env id l) :
    LexesTo env.toScanEnv (EndsName env.toScanEnv) l [nameToken id] := by
  obtain ⟨h1, rfl⟩ := h
  have := Lexes.wideName env.toScanEnv h1 ?_
  · intro rest hr
    rw [this rest hr]
    unfold ScanEnv.identToken nameToken
    split <;> simp_all
  · intro r hr
    obtain ⟨r', m, rfl, h2, _⟩ := h1
    cases hr
    rcases h2 with h2 | rfl
    · cases hs : isSpace r with
      | false => rfl
      | true => rw [env.space_letter r hs] at h2; cases h2
    · decide

theorem statementName_name {env : RowEnv} {id : Identifier} {l : List Nat}
    (h : StatementName env id l) : NameText env id l := by
  obtain ⟨⟨r, m, rfl, h1, h2⟩, h3⟩ := h
  refine ⟨by simp, ?_, h3⟩
  intro c hc
  rcases List.mem_cons.1 hc with rfl | hc
  · rcases h1 with h1 | h1
    · exact .inl h1
    · exact .inr (.inr (.inl h1))
  · exact h2 c hc

/-! ### The texts of one grammar and of the other -/

theorem WordsText.mono {N M : Identifier → List Nat → Prop} (hN : ∀ i l, N i l → M i l)
    {ws : List ColumnWord} {l : List Nat} (h : WordsText N ws l) : WordsText M ws l := by
  induction h with
  | nil => exact .nil
  | cons w a m b n ws l ha hm hb hn _ hs ih => exact .cons w a m b n ws l ha (hN _ _ hm) hb (hN _ _ hn) ih hs

theorem SizedText.mono {N M : Identifier → List Nat → Prop} {b1 b2 : Nat}
    (hN : ∀ i l, N i l → M i l) (hb : b1 ≤ b2) {ct : ColumnType} {sized : Bool} {l : List Nat}
    (h : SizedText N b1 ct sized l) : SizedText M b2 ct sized l := by
  cases h with
  | name typ _ _ h1 h2 => exact .name typ _ _ (hN _ _ h1) h2
  | size typ ct m a b d c n h1 h2 h3 h4 h5 h6 h7 h8 =>
    exact .size typ ct m a b d c n (hN _ _ h1) h2 h3 h4 h5 h6 (by omega) h8

theorem ColumnText.mono {N M : Identifier → List Nat → Prop} {b1 b2 : Nat}
    (hN : ∀ i l, N i l → M i l) (hb : b1 ≤ b2) {d : ColumnDef} {l : List Nat}
    (h : ColumnText N b1 d l) : ColumnText M b2 d l := by
  cases h with
  | mk name ct sized words a m b t l h1 h2 h3 h4 h5 h6 =>
    exact .mk name ct sized words a m b t l h1 (hN _ _ h2) h3 (SizedText.mono hN hb h4)
      (WordsText.mono hN h5) h6

theorem ColumnsText.mono {N M : Identifier → List Nat → Prop} {b1 b2 : Nat}
    (hN : ∀ i l, N i l → M i l) (hb : b1 ≤ b2) {ds : List ColumnDef} {l : List Nat}
    (h : ColumnsText N b1 ds l) : ColumnsText M b2 ds l := by
  induction h with
  | last d l b h1 h2 => exact .last d l b (ColumnText.mono hN hb h1) h2
  | more d l b ds m h1 h2 _ ih => exact .more d l b ds m (ColumnText.mono hN hb h1) h2 ih

/-! ### Tokens -/

/-- The tokens of what is said about a column. -/
def wordTokens (w : ColumnWord) : List Token := [.reserved w.words.1, .reserved w.words.2]

theorem nameToken_word (w : ColumnWord) :
    nameToken w.words.1 = .reserved w.words.1 ∧ nameToken w.words.2 = .reserved w.words.2 := by
  cases w <;> decide

theorem lexesTo_words {env : RowEnv} {ws : List ColumnWord} {l : List Nat}
    (h : WordsText (StatementName env) ws l) :
    LexesTo env.toScanEnv (EndsName env.toScanEnv) l (ws.flatMap wordTokens) := by
  induction h with
  | nil => intro rest _; rfl
  | cons w a m b n ws l ha hm hb hn hw hs ih =>
    intro rest hr
    simp only [List.append_assoc]
    have hr' : ∀ c, (l ++ rest).head? = some c → EndsName env.toScanEnv c := by
      intro c hc
      cases hw with
      | nil => exact hr c hc
      | cons w' =>
        obtain ⟨c', l', e, hc'⟩ := hs (by simp)
        rw [e] at hc
        cases hc
        exact endsName_space hc'
    rw [tokenize_blanks _ ha, lexesTo_name hm, tokenize_blanks _ hb.2, lexesTo_name hn _ hr',
      ih rest hr, (nameToken_word w).1, (nameToken_word w).2]
    · simp [wordTokens]
    · intro c hc
      obtain ⟨h1, h2⟩ := hb
      cases b with
      | nil => exact absurd rfl h1
      | cons c' b =>
        cases hc
        exact endsName_space (h2 c (by simp))

theorem typeNames_free {w : Identifier} {ct : ColumnType} (h : (w, ct) ∈ typeNames) :
    isReserved w = false := by
  have : ∀ p ∈ typeNames, isReserved p.1 = false := by decide
  exact this _ h

theorem blanks_head {ok : Nat → Prop} {a rest : List Nat} (ha : Blanks a)
    (h1 : ∀ c, isSpace c = true → ok c) (h2 : ∀ c, rest.head? = some c → ok c) :
    ∀ c, (a ++ rest).head? = some c → ok c := by
  cases a with
  | nil => exact h2
  | cons c' a =>
    intro c hc
    cases hc
    exact h1 c' (ha c' (by simp))

theorem lexesTo_type {env : RowEnv} {ct : ColumnType} {sized : Bool} {t : List Nat}
    (h : SizedText (StatementName env) (2 ^ 32 - 1) ct sized t) :
    ∃ ts, TypeForm ct ts ∧
      LexesTo env.toScanEnv (fun c => sized = false → EndsName env.toScanEnv c) t ts := by
  cases h with
  | name typ _ m h1 h2 =>
    refine ⟨[.identifier typ], .name h2, ?_⟩
    intro rest hr
    rw [lexesTo_name h1 rest fun c hc => hr c hc rfl, nameToken, typeNames_free h2]
    rfl
  | size typ ct m a b d c n h1 h2 h3 ha hb hd hn hc =>
    have hi : (BitVec.ofInt 64 (n : Int)).toInt = n := by
      rw [BitVec.toInt_ofInt, Int.bmod_eq_of_le] <;> omega
    have e : BitVec.ofNat 32 n = BitVec.setWidth 32 (BitVec.ofInt 64 (n : Int)) :=
      (setWidth_numeral hi).symm
    refine ⟨.identifier typ :: inParens [.integer (BitVec.ofInt 64 n)], ?_, ?_⟩
    · rw [e]
      exact .sized h2 h3 (by omega) (by omega)
    · intro rest _
      have hnum := Lexes.numeral env.toScanEnv (s := []) (minus := false) (.inl ⟨rfl, rfl⟩) hd
        (by omega)
      simp only [List.append_assoc, List.cons_append, List.nil_append]
      rw [lexesTo_name h1, tokenize_blanks _ ha,
        show ∀ l, 40 :: l = [40] ++ l from fun _ => rfl,
        Lexes.mark env.toScanEnv (r := 40) (by decide) _ (fun _ _ => trivial), tokenize_blanks _ hb,
        show d = [] ++ d from rfl, hnum, tokenize_blanks _ hc,
        show ∀ l, 41 :: l = [41] ++ l from fun _ => rfl,
        Lexes.mark env.toScanEnv (r := 41) (by decide) _ (fun _ _ => trivial), nameToken,
        typeNames_free h2]
      · rfl
      · refine blanks_head hc (fun c h => ⟨env.space_digit c h, ?_⟩) ?_
        · rintro rfl
          revert h
          decide
        · intro c hc
          cases hc
          exact ⟨digit_false _ (by omega), by decide⟩
      · refine blanks_head ha (fun c h => endsName_space h) ?_
        intro c hc
        cases hc
        exact endsName_mark (by omega)

/-! ### Definitions -/

/-- What is said about a column is its constraints. -/
theorem words_repeated {env : ParseEnv} {E : Expr → List Token → Prop} {col : Identifier} :
    ∀ (ws : List ColumnWord) (s : CreateTable) (ct : ColumnType),
      (ct.notNull = true → .notNull ∉ ws) → ws.count .notNull ≤ 1 →
      s.constraints.length + ws.count .primaryKey ≤ 1 →
      Repeated (ColumnConstraintForm env E col) (s, ct, none) (ws.flatMap wordTokens)
        ({ s with constraints := s.constraints ++
            List.replicate (ws.count .primaryKey) (primaryOn env col) },
          { ct with notNull := ct.notNull || decide (.notNull ∈ ws) }, none)
  | [], s, ct, _, _, _ => by
    simpa using Repeated.nil (R := ColumnConstraintForm env E col) (s, ct, none)
  | .primaryKey :: ws, s, ct, h1, h2, h3 => by
    simp only [List.count_cons_self] at h3
    have hc : s.constraints = [] := List.eq_nil_of_length_eq_zero (by omega)
    have hk : NewKey s .primary (madeName env 0 [col] "primary") ⟨true, [col], [false]⟩ := by
      intro c h
      rw [hc] at h
      cases h
    have ih := words_repeated (env := env) (col := col) (E := E) ws (withConstraint s (primaryOn env col)) ct
      (fun h => by have := h1 h; simp at this; exact this) (by simpa using h2)
      (by simp [withConstraint, hc]; omega)
    have := Repeated.cons (ColumnConstraintForm.primary (E := E) (d := none) (ct := ct) .none hk) ih
    simp only [withConstraint, List.append_assoc] at this
    simpa [wordTokens, ColumnWord.words, List.replicate_succ] using this
  | .notNull :: ws, s, ct, h1, h2, h3 => by
    have hn : ct.notNull = false := by
      cases h : ct.notNull with
      | false => rfl
      | true => exact absurd (List.mem_cons_self) (h1 h)
    have hw : .notNull ∉ ws := by
      intro h
      have := List.count_pos_iff.2 h
      simp only [List.count_cons_self] at h2
      omega
    have ih := words_repeated (E := E) (env := env) (col := col) ws s { ct with notNull := true }
      (fun _ => hw) (by simp only [List.count_cons_self] at h2; omega) (by simpa using h3)
    have := Repeated.cons (ColumnConstraintForm.notNull (env := env) (E := E) (col := col) (d := none)
      (s := s) .none hn .unnamed) ih
    simpa [wordTokens, ColumnWord.words] using this

/-- The definition with the columns added. -/
def addColumns (env : ParseEnv) (s : CreateTable) (ds : List ColumnDef) : CreateTable :=
  { s with
    columns := s.columns ++ ds.map (·.name)
    columnTypes := s.columnTypes ++ ds.map (·.type)
    columnDefaults := s.columnDefaults ++ ds.map fun _ => none
    constraints := s.constraints ++
      ds.flatMap fun d => List.replicate (d.words.count .primaryKey) (primaryOn env d.name) }

theorem column_element {env : RowEnv} {E : Expr → List Token → Prop} {d : ColumnDef} {l : List Nat}
    (h : ColumnText (StatementName env) (2 ^ 32 - 1) d l) {s : CreateTable} (hn : d.name ∉ s.columns)
    (hf : isReserved d.name = false) (h1 : d.words.count .notNull ≤ 1)
    (h2 : s.constraints.length + d.words.count .primaryKey ≤ 1) :
    ∃ ts, LexesTo env.toScanEnv (EndsName env.toScanEnv) l ts ∧
      TableElement env.toParseEnv E s ts (addColumns env.toParseEnv s [d]) := by
  cases h with
  | mk name ct sized words a m b t l ha hm hb ht hw hs =>
    obtain ⟨ts, hts, hlt⟩ := lexesTo_type ht
    have hnn : ct.notNull = false :=
      sizedText_notNull (SizedText.mono (M := NameText env) (fun _ _ h => statementName_name h)
        (by decide : 2 ^ 32 - 1 ≤ 2 ^ 63) ht)
    refine ⟨.identifier name :: (ts ++ words.flatMap wordTokens), ?_, ?_⟩
    · intro rest hr
      simp only [List.append_assoc]
      rw [tokenize_blanks _ ha, lexesTo_name hm, tokenize_blanks _ hb.2, hlt, lexesTo_words hw rest hr,
        nameToken, hf]
      · simp
      · intro c hc hsz
        cases hw with
        | nil => exact hr c hc
        | cons w =>
          obtain ⟨c', l', e, hc'⟩ := hs hsz (by simp)
          rw [e] at hc
          cases hc
          exact endsName_space hc'
      · intro c hc
        obtain ⟨h1, h2⟩ := hb
        cases b with
        | nil => exact absurd rfl h1
        | cons c' b =>
          cases hc
          exact endsName_space (h2 c (by simp))
    · have := words_repeated (env := env.toParseEnv) (E := E) (col := name) words
        { s with columns := s.columns ++ [name] } ct (by simp [hnn]) h1 h2
      have := TableElement.column hn hts this
      simpa [addColumns, hnn] using this

theorem columns_changes {env : RowEnv} {E : Expr → List Token → Prop} {ds : List ColumnDef}
    {l : List Nat} (h : ColumnsText (StatementName env) (2 ^ 32 - 1) ds l) :
    ∀ {s : CreateTable}, (s.columns ++ ds.map (·.name)).Nodup → (∀ d ∈ ds, isReserved d.name = false) →
    (∀ d ∈ ds, d.words.count .notNull ≤ 1) →
    s.constraints.length + (ds.map fun d => d.words.count .primaryKey).sum ≤ 1 →
    ∃ ts, LexesTo env.toScanEnv (EndsName env.toScanEnv) l ts ∧
      Changes (TableElement env.toParseEnv E) s ts (addColumns env.toParseEnv s ds) := by
  induction h with
  | last d l b h1 h2 =>
    intro s hn hf hw hp
    have hd : d.name ∉ s.columns := fun hc => (List.nodup_append.1 hn).2.2 _ hc _ (by simp) rfl
    obtain ⟨ts, ht, he⟩ := column_element (E := E) h1 hd (hf d (by simp)) (hw d (by simp))
      (by simpa using hp)
    refine ⟨ts, ?_, .one he⟩
    intro rest hr
    rw [List.append_assoc, ht _ (blanks_head h2 (fun c h => endsName_space h) hr),
      tokenize_blanks _ h2]
  | more d l b ds m h1 h2 _ ih =>
    intro s hn hf hw hp
    simp only [List.map_cons, List.sum_cons] at hp
    have hd : d.name ∉ s.columns := fun hc => (List.nodup_append.1 hn).2.2 _ hc _ (by simp) rfl
    obtain ⟨ts, ht, he⟩ := column_element (E := E) h1 hd (hf d (by simp)) (hw d (by simp)) (by omega)
    obtain ⟨us, hu, hc⟩ := ih (s := addColumns env.toParseEnv s [d]) (by simpa [addColumns] using hn)
      (fun d h => hf d (by simp [h])) (fun d h => hw d (by simp [h])) (by simp [addColumns]; omega)
    refine ⟨ts ++ Tok.comma :: us, ?_, ?_⟩
    · intro rest hr
      simp only [List.append_assoc, List.cons_append, List.nil_append]
      rw [ht, tokenize_blanks _ h2, show ∀ l, 44 :: l = [44] ++ l from fun _ => rfl,
        Lexes.mark env.toScanEnv (r := 44) (by decide) _ (fun _ _ => trivial), hu rest hr]
      · refine blanks_head h2 (fun c h => endsName_space h) ?_
        intro c hc
        cases hc
        exact endsName_mark (by omega)
    · have := Changes.cons he hc
      simpa [addColumns] using this

/-! ### The key -/

theorem columnNumber_at (nam : Identifier) : ∀ (pre : List Identifier) (n : Nat) (post : List Identifier),
    nam ∉ pre → columnNumber nam n (pre ++ nam :: post) = some (BitVec.ofNat 32 (n + pre.length))
  | [], n, post, _ => by simp [columnNumber]
  | c :: pre, n, post, h => by
    have h1 : nam ≠ c := fun e => h (by simp [e])
    rw [List.cons_append, columnNumber, if_neg h1,
      columnNumber_at nam pre (n + 1) post fun hc => h (by simp [hc])]
    simp
    congr 1
    omega

theorem keyFrom_nil : ∀ (n : Nat) (ds : List ColumnDef),
    (ds.map fun d => d.words.count .primaryKey).sum = 0 → keyFrom n ds = []
  | _, [], _ => rfl
  | n, d :: ds, h => by
    simp only [List.map_cons, List.sum_cons] at h
    rw [keyFrom, keyFrom_nil (n + 1) ds (by omega), show d.words.count .primaryKey = 0 by omega]
    rfl

theorem primaryColumnKey_of (env : ParseEnv) : ∀ (ds : List ColumnDef) (pre : List Identifier),
    (pre ++ ds.map (·.name)).Nodup → (ds.map fun d => d.words.count .primaryKey).sum ≤ 1 →
    primaryColumnKey (pre ++ ds.map (·.name))
      (ds.flatMap fun d => List.replicate (d.words.count .primaryKey) (primaryOn env d.name)) =
        .ok (keyFrom pre.length ds, 0)
  | [], _, _, _ => rfl
  | d :: ds, pre, hn, hp => by
    simp only [List.map_cons, List.sum_cons] at hp
    by_cases h0 : d.words.count .primaryKey = 0
    · have ih := primaryColumnKey_of env ds (pre ++ [d.name]) (by simpa using hn) (by omega)
      simp [keyFrom, h0] at ih ⊢
      exact ih
    · have h1 : d.words.count .primaryKey = 1 := by omega
      have hd : d.name ∉ pre := by
        intro hc
        have := List.nodup_append.1 hn
        exact this.2.2 _ hc _ (by simp) rfl
      have hk := keyFrom_nil (pre.length + 1) ds (by omega)
      simp only [keyFrom, h1, hk, List.map_cons, List.flatMap_cons, List.replicate_one,
        List.cons_append, List.nil_append]
      simp only [primaryColumnKey, primaryOn, if_true, indexKeyToColumnKey,
        columnNumber_at d.name pre 0 _ hd, Nat.zero_add, makeColumnKey_num, List.nil_append]

end Maho
