import Verif.Spec.Columns
import Verif.Lemmas.Rows
import Verif.Lemmas.Complete
import Verif.Lemmas.SoundStmt
/-
The texts of identifiers and columns are read as the grammar says.
-/
namespace Maho
open Spec

theorem identifierRune_true {env : RowEnv} {r : Nat} :
    identifierRune env.toScanEnv r = true ↔ InName env r := by
  simp [identifierRune, InName, or_assoc]

theorem identifierRune_false {env : RowEnv} {r : Nat} :
    identifierRune env.toScanEnv r = false ↔ ¬ InName env r := by
  rw [← identifierRune_true, Bool.not_eq_true]

theorem inName_space {env : RowEnv} {r : Nat} (h : InName env r) : isSpace r = false := by
  cases hs : isSpace r with
  | false => rfl
  | true =>
    rcases h with h | h | rfl | rfl
    · rw [env.space_letter r hs] at h; cases h
    · rw [env.space_digit r hs] at h; cases h
    · exact absurd hs (by decide)
    · exact absurd hs (by decide)

theorem inName_ascii {env : RowEnv} {r : Nat} (hr : r < 128) (h : InName env r) :
    (65 ≤ r ∧ r ≤ 90) ∨ (97 ≤ r ∧ r ≤ 122) ∨ (48 ≤ r ∧ r ≤ 57) ∨ r = 95 ∨ r = 36 := by
  rcases h with h | h | h | h
  · rw [env.letter_ascii r hr] at h; simp at h; omega
  · rw [env.digit_ascii r hr] at h; simp at h; omega
  · omega
  · omega

theorem inName_pos {env : RowEnv} {r : Nat} (h : InName env r) : r ≠ 0 := by
  rintro rfl
  have := inName_ascii (by decide) h
  omega

theorem not_inName {env : RowEnv} {r : Nat} (hr : r = 40 ∨ r = 41 ∨ r = 44) : ¬ InName env r := by
  intro h
  have := inName_ascii (by omega) h
  omega

/-- The rest does not go on with a name. -/
def NameEnds (env : RowEnv) (rest : List Nat) : Prop := ∀ r, rest.head? = some r → ¬ InName env r

/-- The rest does not go on with white space or a name. -/
def WordsEnd (env : RowEnv) (rest : List Nat) : Prop :=
  ∀ r, rest.head? = some r → isSpace r = false ∧ ¬ InName env r

theorem readIdentifier_some {env : RowEnv} {l : List Nat} {id : Identifier} {rest : List Nat} :
    readIdentifier env l = some (id, rest) ↔
      ∃ a m, Blanks a ∧ l = a ++ m ++ rest ∧ NameText env id m ∧ NameEnds env rest := by
  constructor
  · intro h
    unfold readIdentifier at h
    cases hs : skipBlank l with
    | none => rw [hs] at h; cases h
    | some p =>
      obtain ⟨r, l'⟩ := p
      obtain ⟨a, ha, rfl, hr⟩ := skipBlank_some.1 hs
      rw [hs] at h
      simp only [Option.bind_eq_bind, Option.bind_some] at h
      by_cases hi : identifierRune env.toScanEnv r = false
      · rw [if_pos hi] at h; cases h
      · rw [if_neg hi] at h
        have hin : InName env r := identifierRune_true.1 (by simpa using hi)
        cases hrd : readRunes (identifierRune env.toScanEnv) true l' with
        | none => rw [hrd] at h; cases h
        | some p =>
          obtain ⟨s, rest'⟩ := p
          rw [hrd] at h
          cases h
          obtain ⟨rfl, h1, h2⟩ := (readRunes_true _).1 hrd
          refine ⟨a, r :: s, ha, by simp, ⟨by simp, ?_, ?_⟩, ?_⟩
          · intro x hx
            rcases List.mem_cons.1 hx with rfl | hx
            · exact hin
            · exact identifierRune_true.1 (h1 x hx)
          · rw [builtString_eq, firstRune_pos (inName_pos hin)]; rfl
          · exact fun x hx => identifierRune_false.1 (h2 x hx)
  · rintro ⟨a, m, ha, rfl, ⟨hne, hall, rfl⟩, he⟩
    cases m with
    | nil => exact absurd rfl hne
    | cons r s =>
      have hin := hall r (by simp)
      have hs : skipBlank (a ++ (r :: s) ++ rest) = some (r, s ++ rest) :=
        skipBlank_some.2 ⟨a, ha, by simp, inName_space hin⟩
      have hrd : readRunes (identifierRune env.toScanEnv) true (s ++ rest) = some (s, rest) :=
        (readRunes_true _).2 ⟨rfl,
          fun x hx => identifierRune_true.2 (hall x (List.mem_cons_of_mem _ hx)),
          fun x hx => identifierRune_false.2 (he x hx)⟩
      unfold readIdentifier
      rw [hs]
      simp only [Option.bind_eq_bind, Option.bind_some]
      rw [if_neg (by rw [identifierRune_true.2 hin]; simp), hrd]
      simp only [Option.bind_some, builtString_eq, firstRune_pos (inName_pos hin)]
      rfl

theorem optionalIdentifier_some {env : RowEnv} {l : List Nat} {id : Identifier} {rest : List Nat} :
    optionalIdentifier env l = some (some id, rest) ↔ readIdentifier env l = some (id, rest) := by
  unfold optionalIdentifier readIdentifier
  cases hs : skipBlank l with
  | none => simp
  | some p =>
    obtain ⟨r, l'⟩ := p
    simp only [Option.bind_eq_bind, Option.bind_some]
    by_cases hi : identifierRune env.toScanEnv r = false
    · simp [hi]
    · rw [if_neg hi, if_neg hi]
      cases hrd : readRunes (identifierRune env.toScanEnv) true l' with
      | none => simp
      | some p => simp

theorem optionalIdentifier_none {env : RowEnv} {l rest : List Nat} :
    optionalIdentifier env l = some (none, rest) ↔
      ∃ a, Blanks a ∧ l = a ++ rest ∧ WordsEnd env rest := by
  unfold optionalIdentifier
  cases hs : skipBlank l with
  | none =>
    have hb := skipBlank_none.1 hs
    constructor
    · intro h; cases h
      exact ⟨l, hb, by simp, by intro r hr; cases hr⟩
    · rintro ⟨a, ha, rfl, he⟩
      cases rest with
      | nil => rfl
      | cons r rest =>
        have h1 := hb r (by simp)
        rw [(he r rfl).1] at h1; cases h1
  | some p =>
    obtain ⟨r, l'⟩ := p
    obtain ⟨b, hb, rfl, hr⟩ := skipBlank_some.1 hs
    dsimp only
    by_cases hi : identifierRune env.toScanEnv r = false
    · rw [if_pos hi]
      constructor
      · intro h; cases h
        exact ⟨b, hb, rfl, by rintro x hx; cases hx; exact ⟨hr, identifierRune_false.1 hi⟩⟩
      · rintro ⟨a, ha, e, he⟩
        have h2 : skipBlank (b ++ r :: l') = some (r, l') := hs
        rw [e] at h2
        cases rest with
        | nil =>
          rw [List.append_nil, skipBlank_none.2 ha] at h2; cases h2
        | cons x rest =>
          rw [skipBlank_some.2 ⟨a, ha, rfl, (he x rfl).1⟩] at h2
          cases h2; rfl
    · rw [if_neg hi]
      have hin : InName env r := identifierRune_true.1 (by simpa using hi)
      constructor
      · intro h
        cases hrd : readRunes (identifierRune env.toScanEnv) true l' with
        | none => rw [hrd] at h; cases h
        | some p => rw [hrd] at h; cases h
      · rintro ⟨a, ha, e, he⟩
        have h2 : skipBlank (b ++ r :: l') = some (r, l') := hs
        rw [e] at h2
        cases rest with
        | nil =>
          rw [List.append_nil, skipBlank_none.2 ha] at h2; cases h2
        | cons x rest =>
          rw [skipBlank_some.2 ⟨a, ha, rfl, (he x rfl).1⟩] at h2
          cases h2
          exact absurd hin (he _ rfl).2

/-! ### Lists of identifiers -/

theorem readIdentifiersLoop_some {env : RowEnv} {fuel : Nat} {l : List Nat} {ids : List Identifier}
    (hf : l.length ≤ fuel) :
    readIdentifiersLoop env fuel l = some ids ↔ NamesText env ids l := by
  induction fuel generalizing l ids with
  | zero =>
    have : l = [] := List.eq_nil_of_length_eq_zero (by omega)
    subst this
    constructor
    · intro h; cases h
    · intro h
      generalize e : ([] : List Nat) = l at h
      cases h with
      | last id a m b ha hm hb =>
        have h : a = [] ∧ m = [] ∧ b = [] := by simpa using e.symm
        exact absurd h.2.1 hm.1
      | more id a m b ids l ha hm hb h => simp at e
  | succ fuel ih =>
    constructor
    · intro h
      rw [readIdentifiersLoop] at h
      cases hi : readIdentifier env l with
      | none => rw [hi] at h; cases h
      | some p =>
        obtain ⟨id, rest⟩ := p
        rw [hi] at h
        simp only [Option.bind_eq_bind, Option.bind_some] at h
        obtain ⟨a, m, ha, rfl, hm, he⟩ := readIdentifier_some.1 hi
        cases hs : skipBlank rest with
        | none =>
          rw [hs] at h; cases h
          exact .last id a m rest ha hm (skipBlank_none.1 hs)
        | some p =>
          obtain ⟨r, rest'⟩ := p
          obtain ⟨b, hb, rfl, hr⟩ := skipBlank_some.1 hs
          rw [hs] at h
          dsimp only at h
          by_cases h44 : r = 44
          · subst h44
            rw [if_neg (by simp)] at h
            cases hl : readIdentifiersLoop env fuel rest' with
            | none => rw [hl] at h; cases h
            | some ids' =>
              rw [hl] at h; cases h
              have hn : m.length ≠ 0 := fun e => hm.1 (List.eq_nil_of_length_eq_zero e)
              have := (ih (by simp at hf; omega)).1 hl
              simpa using NamesText.more id a m b ids' rest' ha hm hb this
          · rw [if_pos h44] at h; cases h
    · intro h
      rw [readIdentifiersLoop]
      cases h with
      | last id a m b ha hm hb =>
        have he : NameEnds env b := by
          intro r hr hin
          have := hb r (List.mem_of_mem_head? hr)
          rw [inName_space hin] at this; cases this
        rw [readIdentifier_some.2 ⟨a, m, ha, rfl, hm, he⟩]
        simp only [Option.bind_eq_bind, Option.bind_some, skipBlank_none.2 hb]
        rfl
      | more id a m b ids' l ha hm hb h =>
        have he : NameEnds env (b ++ [44] ++ l) := by
          intro r hr hin
          cases b with
          | nil => cases hr; exact not_inName (by simp) hin
          | cons x b =>
            cases hr
            have := hb r (by simp)
            rw [inName_space hin] at this; cases this
        rw [readIdentifier_some.2 ⟨a, m, ha, by simp, hm, he⟩]
        have hs : skipBlank (b ++ [44] ++ l) = some (44, l) :=
          skipBlank_some.2 ⟨b, hb, by simp, by decide⟩
        simp only [Option.bind_eq_bind, Option.bind_some, hs]
        rw [if_neg (by simp), (ih (by simp at hf; omega)).2 h]
        rfl

/-! ### Sizes -/

/-- The rest does not go on with white space or a parenthesis. -/
def SizeEnds (rest : List Nat) : Prop :=
  ∀ r, rest.head? = some r → isSpace r = false ∧ r ≠ 40

theorem readOptionalSize_none {env : RowEnv} {l rest : List Nat} :
    readOptionalSize env l = some (none, rest) ↔ ∃ a, Blanks a ∧ l = a ++ rest ∧ SizeEnds rest := by
  have key : ∀ r l', skipBlank l = some (r, l') → ∀ a, Blanks a → l = a ++ rest → SizeEnds rest →
      rest = r :: l' ∧ r ≠ 40 := by
    intro r l' hs a ha e he
    rw [e] at hs
    cases rest with
    | nil => rw [List.append_nil, skipBlank_none.2 ha] at hs; cases hs
    | cons x rest =>
      rw [skipBlank_some.2 ⟨a, ha, rfl, (he x rfl).1⟩] at hs
      cases hs
      exact ⟨rfl, (he _ rfl).2⟩
  unfold readOptionalSize
  cases hs : skipBlank l with
  | none =>
    have hb := skipBlank_none.1 hs
    constructor
    · intro h; cases h
      exact ⟨l, hb, by simp, by intro r hr; cases hr⟩
    · rintro ⟨a, ha, rfl, he⟩
      cases rest with
      | nil => rfl
      | cons r rest =>
        have h1 := hb r (by simp)
        rw [(he r rfl).1] at h1; cases h1
  | some p =>
    obtain ⟨r, l'⟩ := p
    obtain ⟨b, hb, e', hr⟩ := skipBlank_some.1 hs
    dsimp only
    by_cases h40 : r = 40
    · rw [if_neg (by simpa using h40)]
      constructor
      · intro h
        exfalso
        cases hs2 : skipBlank l' with
        | none => rw [hs2] at h; cases h
        | some p =>
          obtain ⟨r2, l2⟩ := p
          rw [hs2] at h
          simp only [Option.bind_eq_bind, Option.bind_some] at h
          split at h
          · cases h
          · cases hrd : readRunes env.digit true l2 with
            | none => rw [hrd] at h; cases h
            | some p =>
              obtain ⟨s, l3⟩ := p
              rw [hrd] at h
              simp only [Option.bind_some] at h
              cases hi : parseInt64 (builtString (firstRune r2 ++ s)) with
              | none => rw [hi] at h; cases h
              | some i =>
                rw [hi] at h
                simp only [Option.bind_some] at h
                cases hs3 : skipBlank l3 with
                | none => rw [hs3] at h; cases h
                | some p =>
                  obtain ⟨r3, l4⟩ := p
                  rw [hs3] at h
                  simp only [Option.bind_some] at h
                  split at h <;> cases h
      · rintro ⟨a, ha, e, he⟩
        exact absurd h40 (key r l' hs a ha e he).2
    · rw [if_pos h40]
      constructor
      · intro h; cases h
        exact ⟨b, hb, e', by rintro x hx; cases hx; exact ⟨hr, h40⟩⟩
      · rintro ⟨a, ha, e, he⟩
        rw [(key r l' hs a ha e he).1]

theorem setWidth_numeral {i : BitVec 64} {n : Nat} (h : i.toInt = n) :
    BitVec.setWidth 32 i = BitVec.ofNat 32 n := by
  apply BitVec.eq_of_toNat_eq
  have : i.toNat = n := by
    have h1 := BitVec.toInt_eq_toNat_cond i
    split at h1 <;> omega
  rw [BitVec.toNat_setWidth, BitVec.toNat_ofNat, this]

theorem readOptionalSize_some {env : RowEnv} {l rest : List Nat} {sz : BitVec 32} :
    readOptionalSize env l = some (some sz, rest) ↔
      ∃ a b d c n, Blanks a ∧ Blanks b ∧ Numeral d n ∧ n < 2 ^ 63 ∧ Blanks c ∧
        l = a ++ [40] ++ b ++ d ++ c ++ [41] ++ rest ∧ sz = BitVec.ofNat 32 n := by
  have d0 : env.digit 0 = false := by rw [env.digit_ascii 0 (by decide)]; decide
  have d41 : env.digit 41 = false := by rw [env.digit_ascii 41 (by decide)]; decide
  constructor
  · intro h
    unfold readOptionalSize at h
    cases hs : skipBlank l with
    | none => rw [hs] at h; cases h
    | some p =>
      obtain ⟨r, l'⟩ := p
      obtain ⟨a, ha, rfl, hr⟩ := skipBlank_some.1 hs
      rw [hs] at h
      dsimp only at h
      by_cases h40 : r = 40
      · subst h40
        rw [if_neg (by simp)] at h
        cases hs2 : skipBlank l' with
        | none => rw [hs2] at h; cases h
        | some p =>
          obtain ⟨r2, l2⟩ := p
          obtain ⟨b, hb, rfl, hr2⟩ := skipBlank_some.1 hs2
          rw [hs2] at h
          simp only [Option.bind_eq_bind, Option.bind_some] at h
          by_cases hd : env.digit r2 = false
          · rw [if_pos hd] at h; cases h
          · rw [if_neg hd] at h
            have hd : env.digit r2 = true := by simpa using hd
            have h0 : r2 ≠ 0 := by rintro rfl; rw [d0] at hd; cases hd
            cases hrd : readRunes env.digit true l2 with
            | none => rw [hrd] at h; cases h
            | some p =>
              obtain ⟨s, l3⟩ := p
              rw [hrd] at h
              simp only [Option.bind_some] at h
              obtain ⟨rfl, h1, h2⟩ := (readRunes_true _).1 hrd
              cases hi : parseInt64 (builtString (firstRune r2 ++ s)) with
              | none => rw [hi] at h; cases h
              | some i =>
                rw [hi] at h
                simp only [Option.bind_some] at h
                rw [builtString_eq, firstRune_pos h0] at hi
                obtain ⟨n, hn, hlt, hin⟩ := (parseInt64_text hd).1 hi
                cases hs3 : skipBlank l3 with
                | none => rw [hs3] at h; cases h
                | some p =>
                  obtain ⟨r3, l4⟩ := p
                  obtain ⟨c, hc, rfl, hr3⟩ := skipBlank_some.1 hs3
                  rw [hs3] at h
                  simp only [Option.bind_some] at h
                  by_cases h41 : r3 = 41
                  · subst h41
                    rw [if_neg (by simp)] at h
                    cases h
                    exact ⟨a, b, r2 :: s, c, n, ha, hb, hn, hlt, hc, by simp, setWidth_numeral hin⟩
                  · rw [if_pos h41] at h; cases h
      · rw [if_pos h40] at h; cases h
  · rintro ⟨a, b, d, c, n, ha, hb, hn, hlt, hc, rfl, rfl⟩
    cases d with
    | nil => exact absurd rfl hn.1
    | cons r2 s =>
      have hall := numeral_digits (env := env.toScanEnv) hn
      have hd := hall r2 (by simp)
      have h0 : r2 ≠ 0 := by rintro rfl; rw [d0] at hd; cases hd
      have hsp : isSpace r2 = false := inName_space (env := env) (.inr (.inl hd))
      have e1 : skipBlank (a ++ [40] ++ b ++ (r2 :: s) ++ c ++ [41] ++ rest) =
          some (40, b ++ r2 :: (s ++ (c ++ 41 :: rest))) :=
        skipBlank_some.2 ⟨a, ha, by simp, by decide⟩
      have e2 : skipBlank (b ++ r2 :: (s ++ (c ++ 41 :: rest))) =
          some (r2, s ++ (c ++ 41 :: rest)) := skipBlank_some.2 ⟨b, hb, rfl, hsp⟩
      have e3 : readRunes env.digit true (s ++ (c ++ 41 :: rest)) = some (s, c ++ 41 :: rest) :=
        (readRunes_true _).2 ⟨rfl, fun x hx => hall x (List.mem_cons_of_mem _ hx), by
          intro x hx
          cases c with
          | nil => cases hx; exact d41
          | cons y c => cases hx; exact env.space_digit _ (hc _ (by simp))⟩
      have e4 : parseInt64 (text (r2 :: s)) = some (BitVec.ofNat 64 n) :=
        (parseInt64_text hd).2 ⟨n, hn, hlt, by
          rw [BitVec.toInt_eq_toNat_of_lt] <;> rw [BitVec.toNat_ofNat] <;> omega⟩
      have e5 : skipBlank (c ++ 41 :: rest) = some (41, rest) :=
        skipBlank_some.2 ⟨c, hc, rfl, by decide⟩
      unfold readOptionalSize
      rw [e1]
      dsimp only
      rw [if_neg (by simp), e2]
      simp only [Option.bind_eq_bind, Option.bind_some]
      rw [if_neg (by rw [hd]; simp), e3]
      simp only [Option.bind_some, builtString_eq, firstRune_pos h0, List.singleton_append, e4, e5]
      rw [if_neg (by simp)]
      have : BitVec.setWidth 32 (BitVec.ofNat 64 n) = BitVec.ofNat 32 n := by
        apply setWidth_numeral
        rw [BitVec.toInt_eq_toNat_of_lt] <;> rw [BitVec.toNat_ofNat] <;> omega
      rw [this]
      rfl

/-! ### The words after a type -/

theorem wordsText_start {env : RowEnv} {ws : List ColumnWord} {m : List Nat}
    (h : WordsText (NameText env) ws m) (hne : ws ≠ []) :
    ∃ c l, m = c :: l ∧ (isSpace c = true ∨ InName env c) := by
  cases h with
  | nil => exact absurd rfl hne
  | cons w a m b n ws l ha hm =>
    cases a with
    | cons c a => exact ⟨c, _, rfl, .inl (ha c (by simp))⟩
    | nil =>
      cases m with
      | nil => exact absurd rfl hm.1
      | cons c m => exact ⟨c, _, rfl, .inr (hm.2.1 c (by simp))⟩

theorem wordsText_spaces {env : RowEnv} {ws : List ColumnWord} {a m : List Nat}
    (h : WordsText (NameText env) ws m) (hne : ws ≠ []) (ha : Blanks a) : WordsText (NameText env) ws (a ++ m) := by
  cases h with
  | nil => exact absurd rfl hne
  | cons w b m c n ws l hb hm hc hn hl hs =>
    have : Blanks (a ++ b) := by
      intro r hr
      rcases List.mem_append.1 hr with hr | hr
      · exact ha r hr
      · exact hb r hr
    simpa using WordsText.cons w (a ++ b) m c n ws l this hm hc hn hl hs

theorem nameEnds_blanks {env : RowEnv} {a rest : List Nat} (ha : Blanks a)
    (he : WordsEnd env rest) : NameEnds env (a ++ rest) := by
  intro r hr hin
  cases a with
  | nil => exact (he r hr).2 hin
  | cons x a =>
    cases hr
    have := ha r (by simp)
    rw [inName_space hin] at this; cases this

theorem nameEnds_space {env : RowEnv} {c : Nat} {l : List Nat} (hc : isSpace c = true) :
    NameEnds env (c :: l) := by
  intro r hr hin
  cases hr
  rw [inName_space hin] at hc; cases hc

/-- After a name come words only with white space before them. -/
theorem space_of_nameEnds {env : RowEnv} {ws : List ColumnWord} {m rest : List Nat}
    (h : WordsText (NameText env) ws m) (hne : ws ≠ []) (he : NameEnds env (m ++ rest)) :
    ∃ c l, m = c :: l ∧ isSpace c = true := by
  obtain ⟨c, l, rfl, hc⟩ := wordsText_start h hne
  rcases hc with hc | hc
  · exact ⟨c, l, rfl, hc⟩
  · exact absurd hc (he c rfl)

theorem readColumnWords_some {env : RowEnv} {num : ColumnNum} {fuel : Nat} {ct ct' : ColumnType}
    {key key' : List ColumnKey} {l rest : List Nat} (hf : l.length < fuel) :
    readColumnWords env num fuel ct key l = some (ct', key', rest) ↔
      ∃ ws m a, l = m ++ a ++ rest ∧ WordsText (NameText env) ws m ∧ Blanks a ∧ WordsEnd env rest ∧
        ct' = { ct with notNull := ct.notNull || decide (.notNull ∈ ws) } ∧
        key' = key ++ List.replicate (ws.count .primaryKey) (makeColumnKey num false) := by
  induction fuel generalizing l ct key with
  | zero => omega
  | succ fuel ih =>
    -- One word and the rest.
    have turn : ∀ (w : ColumnWord) (ct1 : ColumnType) (key1 : List ColumnKey),
        (∀ ws : List ColumnWord,
          ({ ct1 with notNull := ct1.notNull || decide (ColumnWord.notNull ∈ ws) } : ColumnType) =
            { ct with notNull := ct.notNull || decide (ColumnWord.notNull ∈ w :: ws) } ∧
          key1 ++ List.replicate (ws.count .primaryKey) (makeColumnKey num false) =
            key ++ List.replicate ((w :: ws).count .primaryKey) (makeColumnKey num false)) →
        ∀ l1 l2, readIdentifier env l = some (w.words.1, l1) →
          readIdentifier env l1 = some (w.words.2, l2) →
          (readColumnWords env num fuel ct1 key1 l2 = some (ct', key', rest) ↔
            ∃ ws m a, l = m ++ a ++ rest ∧ WordsText (NameText env) (w :: ws) m ∧ Blanks a ∧
              WordsEnd env rest ∧
              ct' = { ct with notNull := ct.notNull || decide (.notNull ∈ w :: ws) } ∧
              key' = key ++
                List.replicate ((w :: ws).count .primaryKey) (makeColumnKey num false)) := by
      intro w ct1 key1 hk l1 l2 h1 h2
      obtain ⟨a, m, ha, rfl, hm, he1⟩ := readIdentifier_some.1 h1
      obtain ⟨b, n, hb, rfl, hn, he2⟩ := readIdentifier_some.1 h2
      have hmn : m.length ≠ 0 := fun e => hm.1 (List.eq_nil_of_length_eq_zero e)
      rw [ih (by simp at hf; omega)]
      have hgap : Gap b := by
        refine ⟨?_, hb⟩
        rintro rfl
        cases n with
        | nil => exact hn.1 rfl
        | cons c n => exact he1 c rfl (hn.2.1 c (by simp))
      constructor
      · rintro ⟨ws, m', a', rfl, hw, ha', he, rfl, rfl⟩
        refine ⟨ws, a ++ m ++ b ++ n ++ m', a', by simp, ?_, ha', he, (hk ws).1, (hk ws).2⟩
        refine .cons w a m b n ws m' ha hm hgap hn hw fun hne => ?_
        exact space_of_nameEnds hw hne (by simpa using he2)
      · rintro ⟨ws, m', a', e, hw, ha', he, rfl, rfl⟩
        cases hw with
        | cons _ a2 m2 b2 n2 _ l2' ha2 hm2 hb2 hn2 hl2 hs2 =>
          have hend : NameEnds env (l2' ++ a' ++ rest) := by
            by_cases hne : ws = []
            · subst hne; cases hl2
              simpa using nameEnds_blanks ha' he
            · obtain ⟨c, l', rfl, hc⟩ := hs2 hne
              exact nameEnds_space hc
          have hend1 : NameEnds env (b2 ++ n2 ++ l2' ++ a' ++ rest) := by
            cases b2 with
            | nil => exact absurd rfl hb2.1
            | cons c b2 => exact nameEnds_space (hb2.2 c (by simp))
          have r1 := (readIdentifier_some (l := a2 ++ m2 ++ b2 ++ n2 ++ l2' ++ a' ++ rest)).2
            ⟨a2, m2, ha2, by simp, hm2, hend1⟩
          rw [← e, h1] at r1
          have e1 : b ++ n ++ l2 = b2 ++ n2 ++ l2' ++ a' ++ rest := by injection r1 with h; injection h
          have r2 := (readIdentifier_some (l := b2 ++ n2 ++ l2' ++ a' ++ rest)).2
            ⟨b2, n2, hb2.2, by simp, hn2, hend⟩
          rw [← e1, h2] at r2
          have e2 : l2 = l2' ++ a' ++ rest := by injection r2 with h; injection h
          exact ⟨ws, l2', a', e2, hl2, ha', he, ((hk ws).1).symm, ((hk ws).2).symm⟩
    rw [readColumnWords]
    cases ho : optionalIdentifier env l with
    | none =>
      constructor
      · intro h; cases h
      · rintro ⟨ws, m, a, rfl, hw, ha, he, rfl, rfl⟩
        exfalso
        cases hw with
        | nil =>
          rw [optionalIdentifier_none.2 ⟨a, ha, by simp, he⟩] at ho; cases ho
        | cons w a2 m2 b2 n2 ws l2' ha2 hm2 hb2 hn2 hl2 hs2 =>
          have hend1 : NameEnds env (b2 ++ n2 ++ l2' ++ a ++ rest) := by
            cases b2 with
            | nil => exact absurd rfl hb2.1
            | cons c b2 => exact nameEnds_space (hb2.2 c (by simp))
          have r1 := (readIdentifier_some (l := a2 ++ m2 ++ b2 ++ n2 ++ l2' ++ a ++ rest)).2
            ⟨a2, m2, ha2, by simp, hm2, hend1⟩
          rw [optionalIdentifier_some.2 r1] at ho; cases ho
    | some p =>
      obtain ⟨oid, l1⟩ := p
      simp only [Option.bind_eq_bind, Option.bind_some]
      -- How the words start.
      have start : ∀ ws m a, l = m ++ a ++ rest → WordsText (NameText env) ws m → Blanks a →
          WordsEnd env rest → (ws = [] ∧ oid = none ∧ l1 = rest) ∨
          ∃ w ws' l2, ws = w :: ws' ∧ oid = some w.words.1 ∧
            readIdentifier env l1 = some (w.words.2, l2) := by
        rintro ws m a rfl hw ha he
        cases hw with
        | nil =>
          rw [optionalIdentifier_none.2 ⟨a, ha, by simp, he⟩] at ho
          cases ho
          exact .inl ⟨rfl, rfl, rfl⟩
        | cons w a2 m2 b2 n2 ws l2' ha2 hm2 hb2 hn2 hl2 hs2 =>
          have hend : NameEnds env (l2' ++ a ++ rest) := by
            by_cases hne : ws = []
            · subst hne; cases hl2
              simpa using nameEnds_blanks ha he
            · obtain ⟨c, l', rfl, hc⟩ := hs2 hne
              exact nameEnds_space hc
          have hend1 : NameEnds env (b2 ++ n2 ++ l2' ++ a ++ rest) := by
            cases b2 with
            | nil => exact absurd rfl hb2.1
            | cons c b2 => exact nameEnds_space (hb2.2 c (by simp))
          have r1 := (readIdentifier_some (l := a2 ++ m2 ++ b2 ++ n2 ++ l2' ++ a ++ rest)).2
            ⟨a2, m2, ha2, by simp, hm2, hend1⟩
          rw [optionalIdentifier_some.2 r1] at ho
          cases ho
          refine .inr ⟨w, ws, l2' ++ a ++ rest, rfl, rfl, ?_⟩
          exact readIdentifier_some.2 ⟨b2, n2, hb2.2, by simp, hn2, hend⟩
      cases oid with
      | none =>
        constructor
        · intro h; cases h
          obtain ⟨a, ha, rfl, he⟩ := optionalIdentifier_none.1 ho
          exact ⟨[], [], a, by simp, .nil, ha, he, by simp, by simp⟩
        · rintro ⟨ws, m, a, e, hw, ha, he, rfl, rfl⟩
          rcases start ws m a e hw ha he with ⟨rfl, _, rfl⟩ | ⟨w, ws', l2, _, h, _⟩
          · simp
          · cases h
      | some id =>
        have h1 := optionalIdentifier_some.1 ho
        dsimp only
        by_cases hp : id = Kw.PRIMARY
        · subst hp
          rw [if_pos rfl]
          cases h2 : readIdentifier env l1 with
          | none =>
            constructor
            · intro h; cases h
            · rintro ⟨ws, m, a, e, hw, ha, he, rfl, rfl⟩
              rcases start ws m a e hw ha he with ⟨_, h, _⟩ | ⟨w, ws', l2, _, _, h⟩
              · cases h
              · rw [h2] at h; cases h
          | some p =>
            obtain ⟨id2, l2⟩ := p
            simp only [Option.bind_some]
            by_cases hk : id2 = Kw.KEY
            · subst hk
              rw [if_neg (by simp)]
              rw [turn .primaryKey ct (key ++ [makeColumnKey num false])
                (fun ws => ⟨by simp, by simp [List.replicate_succ]⟩) l1 l2 h1 h2]
              constructor
              · rintro ⟨ws, m, a, h⟩; exact ⟨_, m, a, h⟩
              · rintro ⟨ws, m, a, e, hw, ha, he, h⟩
                rcases start ws m a e hw ha he with ⟨_, h, _⟩ | ⟨w, ws', l2, rfl, hw1, _⟩
                · cases h
                · cases w with
                  | primaryKey => exact ⟨ws', m, a, e, hw, ha, he, h⟩
                  | notNull => exact absurd hw1 (by decide)
            · rw [if_pos hk]
              constructor
              · intro h; cases h
              · rintro ⟨ws, m, a, e, hw, ha, he, rfl, rfl⟩
                rcases start ws m a e hw ha he with ⟨_, h, _⟩ | ⟨w, ws', l2, _, hw1, h⟩
                · cases h
                · rw [h2] at h
                  cases w with
                  | primaryKey => cases h; exact absurd rfl hk
                  | notNull => exact absurd hw1 (by decide)
        · rw [if_neg hp]
          by_cases hp : id = Kw.NOT
          · subst hp
            rw [if_pos rfl]
            cases h2 : readIdentifier env l1 with
            | none =>
              constructor
              · intro h; cases h
              · rintro ⟨ws, m, a, e, hw, ha, he, rfl, rfl⟩
                rcases start ws m a e hw ha he with ⟨_, h, _⟩ | ⟨w, ws', l2, _, _, h⟩
                · cases h
                · rw [h2] at h; cases h
            | some p =>
              obtain ⟨id2, l2⟩ := p
              simp only [Option.bind_some]
              by_cases hk : id2 = Kw.NULL
              · subst hk
                rw [if_neg (by simp)]
                rw [turn .notNull { ct with notNull := true } key
                  (fun ws => ⟨by simp, by simp⟩) l1 l2 h1 h2]
                constructor
                · rintro ⟨ws, m, a, h⟩; exact ⟨_, m, a, h⟩
                · rintro ⟨ws, m, a, e, hw, ha, he, h⟩
                  rcases start ws m a e hw ha he with ⟨_, h, _⟩ | ⟨w, ws', l2, rfl, hw1, _⟩
                  · cases h
                  · cases w with
                    | notNull => exact ⟨ws', m, a, e, hw, ha, he, h⟩
                    | primaryKey => exact absurd hw1 (by decide)
              · rw [if_pos hk]
                constructor
                · intro h; cases h
                · rintro ⟨ws, m, a, e, hw, ha, he, rfl, rfl⟩
                  rcases start ws m a e hw ha he with ⟨_, h, _⟩ | ⟨w, ws', l2, _, hw1, h⟩
                  · cases h
                  · rw [h2] at h
                    cases w with
                    | notNull => cases h; exact absurd rfl hk
                    | primaryKey => exact absurd hw1 (by decide)
          · rw [if_neg hp]
            constructor
            · intro h; cases h
            · rintro ⟨ws, m, a, e, hw, ha, he, rfl, rfl⟩
              rcases start ws m a e hw ha he with ⟨_, h, _⟩ | ⟨w, ws', l2, _, hw1, h⟩
              · cases h
              · cases w with
                | notNull => cases hw1; exact absurd rfl hp
                | primaryKey => cases hw1; exact absurd rfl ‹_›

/-! ### Columns -/

theorem readType_form {env : RowEnv} {l rest : List Nat} {ct : ColumnType}
    (h : readType env l = some (ct, rest)) :
    ∃ a t c sized, Blanks a ∧ Blanks c ∧ l = a ++ t ++ c ++ rest ∧ SizedText (NameText env) (2 ^ 63) ct sized t ∧
      (sized = false → NameEnds env (c ++ rest)) := by
  unfold readType at h
  cases h1 : readIdentifier env l with
  | none => rw [h1] at h; cases h
  | some p =>
    obtain ⟨typ, l1⟩ := p
    obtain ⟨a, m, ha, rfl, hm, he⟩ := readIdentifier_some.1 h1
    rw [h1] at h
    simp only [Option.bind_eq_bind, Option.bind_some] at h
    cases hl : columnTypes.lookup typ with
    | none => rw [hl] at h; cases h
    | some ct0 =>
      have hmem := Sound.typeNames_of hl
      rw [hl] at h
      simp only [Option.bind_some] at h
      by_cases hs : ct0.type = .string ∨ ct0.type = .bytes
      · rw [if_pos hs] at h
        cases ho : readOptionalSize env l1 with
        | none => rw [ho] at h; cases h
        | some p =>
          obtain ⟨sz, l2⟩ := p
          rw [ho] at h
          simp only [Option.bind_some] at h
          cases sz with
          | none =>
            cases h
            obtain ⟨c, hc, rfl, _⟩ := readOptionalSize_none.1 ho
            exact ⟨a, m, c, false, ha, hc, by simp, .name typ _ m hm hmem, fun _ => he⟩
          | some sz =>
            cases h
            obtain ⟨a2, b, d, c, n, ha2, hb, hd, hn, hc, rfl, rfl⟩ := readOptionalSize_some.1 ho
            exact ⟨a, m ++ a2 ++ [40] ++ b ++ d ++ c ++ [41], [], true, ha, blanks_nil, by simp,
              .size typ ct0 m a2 b d c n hm hmem hs ha2 hb hd hn hc, fun h => by cases h⟩
      · rw [if_neg hs] at h
        cases h
        exact ⟨a, m, [], false, ha, blanks_nil, by simp, .name typ _ m hm hmem, fun _ => he⟩

/-- A type is read from its text. White space after it may be read, too. -/
theorem readType_text {env : RowEnv} {a t l : List Nat} {ct : ColumnType} {sized : Bool}
    (ha : Blanks a) (ht : SizedText (NameText env) (2 ^ 63) ct sized t)
    (he : sized = false → NameEnds env l ∧ ∀ b c m, l = b ++ c :: m → Blanks b → c ≠ 40) :
    ∃ b m, Blanks b ∧ l = b ++ m ∧ readType env (a ++ t ++ l) = some (ct, m) := by
  cases ht with
  | name typ _ _ hm hmem =>
    have h1 := readIdentifier_some.2 ⟨a, t, ha, rfl, hm, (he rfl).1⟩
    by_cases hs : ct.type = .string ∨ ct.type = .bytes
    · have : ∃ b m, Blanks b ∧ l = b ++ m ∧ SizeEnds m := by
        cases hsk : skipBlank l with
        | none => exact ⟨l, [], skipBlank_none.1 hsk, by simp, by intro r hr; cases hr⟩
        | some p =>
          obtain ⟨r, l'⟩ := p
          obtain ⟨b, hb, rfl, hr⟩ := skipBlank_some.1 hsk
          exact ⟨b, r :: l', hb, rfl, by
            rintro x hx; cases hx; exact ⟨hr, (he rfl).2 b _ l' rfl hb⟩⟩
      obtain ⟨b, m, hb, rfl, hm⟩ := this
      refine ⟨b, m, hb, rfl, ?_⟩
      unfold readType
      simp only [h1, Option.bind_eq_bind, Option.bind_some, typeNames_lookup hmem, if_pos hs,
        readOptionalSize_none.2 ⟨b, hb, rfl, hm⟩]
      rfl
    · refine ⟨[], l, blanks_nil, rfl, ?_⟩
      unfold readType
      simp only [h1, Option.bind_eq_bind, Option.bind_some, typeNames_lookup hmem, if_neg hs]
      rfl
  | size typ ct m a2 b d c n hm hmem hs ha2 hb hd hn hc =>
    refine ⟨[], l, blanks_nil, rfl, ?_⟩
    have hend : NameEnds env (a2 ++ [40] ++ b ++ d ++ c ++ [41] ++ l) := by
      intro r hr hin
      cases a2 with
      | nil => cases hr; exact not_inName (by simp) hin
      | cons x a2 =>
        cases hr
        have := ha2 r (by simp)
        rw [inName_space hin] at this; cases this
    have h1 := (readIdentifier_some (env := env)
      (l := a ++ (m ++ a2 ++ [40] ++ b ++ d ++ c ++ [41]) ++ l)).2
      ⟨a, m, ha, by simp, hm, hend⟩
    unfold readType
    simp only [h1, Option.bind_eq_bind, Option.bind_some, typeNames_lookup hmem, if_pos hs,
      readOptionalSize_some.2 ⟨a2, b, d, c, n, ha2, hb, hd, hn, hc, rfl, rfl⟩]
    rfl

theorem sizedText_notNull {env : RowEnv} {ct : ColumnType} {sized : Bool} {t : List Nat}
    (h : SizedText (NameText env) (2 ^ 63) ct sized t) : ct.notNull = false := by
  have : ∀ p ∈ typeNames, p.2.notNull = false := by decide
  cases h with
  | name typ _ _ _ hmem => exact this _ hmem
  | size typ ct m a b d c n _ hmem => exact this _ hmem

theorem sizedText_head {env : RowEnv} {ct : ColumnType} {sized : Bool} {t : List Nat}
    (h : SizedText (NameText env) (2 ^ 63) ct sized t) : ∃ r t', t = r :: t' ∧ InName env r := by
  have name : ∀ typ m, NameText env typ m → ∃ r t', m = r :: t' ∧ InName env r := by
    intro typ m hm
    cases m with
    | nil => exact absurd rfl hm.1
    | cons r m => exact ⟨r, m, rfl, hm.2.1 r (by simp)⟩
  cases h with
  | name typ _ _ hm => exact name typ _ hm
  | size typ ct m a b d c n hm =>
    obtain ⟨r, m, rfl, hr⟩ := name typ m hm
    exact ⟨r, _, rfl, hr⟩

theorem readColumn_form {env : RowEnv} {num : ColumnNum} {key key' : List ColumnKey}
    {l rest : List Nat} {col : Identifier} {ct : ColumnType}
    (h : readColumn env num key l = some (col, ct, key', rest)) :
    ∃ d m a, l = m ++ a ++ rest ∧ ColumnText (NameText env) (2 ^ 63) d m ∧ Blanks a ∧ WordsEnd env rest ∧
      col = d.name ∧ ct = d.type ∧
      key' = key ++ List.replicate (d.words.count .primaryKey) (makeColumnKey num false) := by
  unfold readColumn at h
  cases h1 : readIdentifier env l with
  | none => rw [h1] at h; cases h
  | some p =>
    obtain ⟨name, l1⟩ := p
    obtain ⟨a, m, ha, rfl, hm, he⟩ := readIdentifier_some.1 h1
    rw [h1] at h
    simp only [Option.bind_eq_bind, Option.bind_some] at h
    cases h2 : readType env l1 with
    | none => rw [h2] at h; cases h
    | some p =>
      obtain ⟨ct0, l2⟩ := p
      obtain ⟨b, t, c, sized, hb, hc, rfl, ht, hte⟩ := readType_form h2
      rw [h2] at h
      simp only [Option.bind_some] at h
      cases h3 : readColumnWords env num (l2.length + 1) ct0 key l2 with
      | none => rw [h3] at h; cases h
      | some p =>
        obtain ⟨ct1, key1, l3⟩ := p
        rw [h3] at h
        cases h
        obtain ⟨ws, m3, a3, rfl, hw, ha3, he3, rfl, rfl⟩ :=
          (readColumnWords_some (Nat.lt_succ_self _)).1 h3
        have hgap : Gap b := by
          refine ⟨?_, hb⟩
          rintro rfl
          obtain ⟨r, t', rfl, hr⟩ := sizedText_head ht
          exact he r rfl hr
        rw [sizedText_notNull ht, Bool.false_or]
        by_cases hne : ws = []
        · subst hne
          cases hw
          have : Blanks (c ++ a3) := by
            intro r hr
            rcases List.mem_append.1 hr with hr | hr
            · exact hc r hr
            · exact ha3 r hr
          exact ⟨_, _, c ++ a3, by simp,
            .mk _ ct0 sized [] a m b t [] ha hm hgap ht .nil (fun _ h => absurd rfl h), this, he3,
            rfl, rfl, rfl⟩
        · have hw' := wordsText_spaces hw hne hc
          refine ⟨_, _, a3, by simp,
            .mk _ ct0 sized ws a m b t (c ++ m3) ha hm hgap ht hw' (fun hs _ => ?_), ha3, he3,
            rfl, rfl, rfl⟩
          exact space_of_nameEnds hw' hne (by simpa using hte hs)

theorem optionalIdentifier_spaces {env : RowEnv} {a l : List Nat} (ha : Blanks a) :
    optionalIdentifier env (a ++ l) = optionalIdentifier env l := by
  have : skipBlank (a ++ l) = skipBlank l := by
    induction a with
    | nil => rfl
    | cons x a ih =>
      rw [List.cons_append, skipBlank, if_pos (ha x (by simp))]
      exact ih fun r hr => ha r (List.mem_cons_of_mem _ hr)
  unfold optionalIdentifier
  rw [this]

theorem readColumnWords_spaces {env : RowEnv} {num : ColumnNum} {fuel : Nat} {ct : ColumnType}
    {key : List ColumnKey} {a l : List Nat} (ha : Blanks a) :
    readColumnWords env num fuel ct key (a ++ l) = readColumnWords env num fuel ct key l := by
  cases fuel with
  | zero => rfl
  | succ fuel => rw [readColumnWords, readColumnWords, optionalIdentifier_spaces ha]

theorem readColumn_text {env : RowEnv} {num : ColumnNum} {key : List ColumnKey} {d : ColumnDef}
    {m a rest : List Nat} (hd : ColumnText (NameText env) (2 ^ 63) d m) (ha : Blanks a)
    (hr : rest = [] ∨ rest.head? = some 44) :
    readColumn env num key (m ++ a ++ rest) =
      some (d.name, d.type,
        key ++ List.replicate (d.words.count .primaryKey) (makeColumnKey num false), rest) := by
  have he : WordsEnd env rest := by
    intro r h
    rcases hr with rfl | hr
    · cases h
    · rw [hr] at h; cases h
      exact ⟨by decide, not_inName (by simp)⟩
  cases hd with
  | mk name ct sized ws a1 n b t l ha1 hn hb ht hw hs =>
    have hend : NameEnds env (b ++ t ++ l ++ a ++ rest) := by
      cases b with
      | nil => exact absurd rfl hb.1
      | cons c b => exact nameEnds_space (hb.2 c (by simp))
    have h1 := (readIdentifier_some (l := a1 ++ n ++ b ++ t ++ l ++ a ++ rest)).2
      ⟨a1, n, ha1, by simp, hn, hend⟩
    have hte : sized = false → NameEnds env (l ++ a ++ rest) ∧
        ∀ b c m, l ++ a ++ rest = b ++ c :: m → Blanks b → c ≠ 40 := by
      intro hsz
      by_cases hne : ws = []
      · subst hne
        cases hw
        refine ⟨by simpa using nameEnds_blanks ha he, ?_⟩
        rintro b' c m' e hb' rfl
        have e1 : skipBlank (b' ++ 40 :: m') = some (40, m') :=
          skipBlank_some.2 ⟨b', hb', rfl, by decide⟩
        rw [← e] at e1
        rcases hr with rfl | hr
        · simp only [List.nil_append, List.append_nil] at e1
          rw [skipBlank_none.2 ha] at e1; cases e1
        · cases rest with
          | nil => cases hr
          | cons x rest =>
            cases hr
            have e2 : skipBlank ([] ++ a ++ 44 :: rest) = some (44, rest) :=
              skipBlank_some.2 ⟨a, ha, by simp, by decide⟩
            rw [e2] at e1; cases e1
      · refine ⟨by obtain ⟨c, l', rfl, hc⟩ := hs hsz hne; exact nameEnds_space hc, ?_⟩
        rintro b' c' m' e hb' rfl
        have e1 : skipBlank (b' ++ 40 :: m') = some (40, m') :=
          skipBlank_some.2 ⟨b', hb', rfl, by decide⟩
        rw [← e] at e1
        cases hw with
        | nil => exact absurd rfl hne
        | cons w a2 m2 b2 n2 ws l2 ha2 hm2 =>
          cases m2 with
          | nil => exact absurd rfl hm2.1
          | cons x m2 =>
            have hx := hm2.2.1 x (by simp)
            rw [skipBlank_some.2 ⟨a2, ha2, by simp; rfl, inName_space hx⟩] at e1
            cases e1
            exact not_inName (by simp) hx
    obtain ⟨b2, m2, hb2, e2, h2⟩ := readType_text (a := b) hb.2 ht hte
    have h3 : readColumnWords env num ((b2 ++ m2).length + 1) ct key (b2 ++ m2) =
        some ({ ct with notNull := decide (.notNull ∈ ws) },
          key ++ List.replicate (ws.count .primaryKey) (makeColumnKey num false), rest) := by
      refine (readColumnWords_some (Nat.lt_succ_self _)).2
        ⟨ws, l, a, e2.symm, hw, ha, he, ?_, rfl⟩
      rw [sizedText_notNull ht, Bool.false_or]
    rw [readColumnWords_spaces hb2] at h3
    have h4 : readColumnWords env num (m2.length + 1) ct key m2 =
        some ({ ct with notNull := decide (.notNull ∈ ws) },
          key ++ List.replicate (ws.count .primaryKey) (makeColumnKey num false), rest) :=
      (readColumnWords_some (Nat.lt_succ_self _)).2
        ((readColumnWords_some (by simp; omega)).1 h3)
    unfold readColumn
    simp only [h1, Option.bind_eq_bind, Option.bind_some]
    have e : b ++ t ++ l ++ a ++ rest = b ++ t ++ (l ++ a ++ rest) := by simp
    rw [e, h2]
    simp only [Option.bind_some, h4]
    rfl

theorem columnText_length {env : RowEnv} {d : ColumnDef} {m : List Nat} (h : ColumnText (NameText env) (2 ^ 63) d m) :
    m.length ≠ 0 := by
  cases h with
  | mk name ct sized ws a1 n b t l ha1 hn =>
    intro e
    refine hn.1 (List.eq_nil_of_length_eq_zero ?_)
    simp only [List.length_append] at e
    omega

theorem makeColumnKey_num (n : Nat) :
    makeColumnKey (BitVec.ofNat 32 n) false = BitVec.ofNat 32 (n + 1) := by
  simp [makeColumnKey, BitVec.ofNat_add]

theorem readColumnsLoop_some {env : RowEnv} {fuel : Nat} {l : List Nat}
    {cols cols' : List Identifier} {cts cts' : List ColumnType} {key key' : List ColumnKey}
    (hf : l.length ≤ fuel) :
    readColumnsLoop env fuel cols cts key l = some (cols', cts', key') ↔
      ∃ ds, ColumnsText (NameText env) (2 ^ 63) ds l ∧ cols' = cols ++ ds.map (·.name) ∧ cts' = cts ++ ds.map (·.type) ∧
        key' = key ++ keyFrom cols.length ds := by
  induction fuel generalizing l cols cts key with
  | zero =>
    have : l = [] := List.eq_nil_of_length_eq_zero (by omega)
    subst this
    constructor
    · intro h; cases h
    · rintro ⟨ds, h, _⟩
      generalize e : ([] : List Nat) = l at h
      cases h with
      | last d l b hd hb =>
        have h : l = [] ∧ b = [] := by simpa using e.symm
        exact absurd (by rw [h.1]; rfl) (columnText_length hd)
      | more d l b ds m hd hb h => simp at e
  | succ fuel ih =>
    constructor
    · intro h
      rw [readColumnsLoop] at h
      cases hc : readColumn env (BitVec.ofNat 32 cols.length) key l with
      | none => rw [hc] at h; cases h
      | some p =>
        obtain ⟨col, ct, key1, rest⟩ := p
        rw [hc] at h
        simp only [Option.bind_eq_bind, Option.bind_some] at h
        obtain ⟨d, m, a, rfl, hd, ha, he, rfl, rfl, rfl⟩ := readColumn_form hc
        rw [makeColumnKey_num] at h
        cases hs : skipBlank rest with
        | none =>
          rw [hs] at h; cases h
          have : Blanks (a ++ rest) := by
            intro r hr
            rcases List.mem_append.1 hr with hr | hr
            · exact ha r hr
            · exact skipBlank_none.1 hs r hr
          refine ⟨[d], by simpa using ColumnsText.last d m (a ++ rest) hd this, rfl, rfl, ?_⟩
          simp [keyFrom]
        | some p =>
          obtain ⟨r, rest'⟩ := p
          obtain ⟨b, hb, rfl, hr⟩ := skipBlank_some.1 hs
          rw [hs] at h
          dsimp only at h
          by_cases h44 : r = 44
          · subst h44
            rw [if_neg (by simp)] at h
            have hn := columnText_length hd
            obtain ⟨ds, hds, rfl, rfl, rfl⟩ := (ih (by simp at hf; omega)).1 h
            have : Blanks (a ++ b) := by
              intro r hr
              rcases List.mem_append.1 hr with hr | hr
              · exact ha r hr
              · exact hb r hr
            refine ⟨d :: ds, by simpa using ColumnsText.more d m (a ++ b) ds rest' hd this hds,
              by simp, by simp, ?_⟩
            simp [keyFrom]
          · rw [if_pos h44] at h; cases h
    · rintro ⟨ds, h, rfl, rfl, rfl⟩
      rw [readColumnsLoop]
      cases h with
      | last d l b hd hb =>
        have h1 := readColumn_text (num := BitVec.ofNat 32 cols.length) (key := key) hd hb
          (rest := []) (.inl rfl)
        rw [List.append_nil] at h1
        simp only [h1, Option.bind_eq_bind, Option.bind_some, skipBlank, makeColumnKey_num]
        simp [keyFrom]
      | more d l b ds m hd hb h =>
        have h1 := readColumn_text (num := BitVec.ofNat 32 cols.length) (key := key) hd hb
          (rest := 44 :: m) (.inr rfl)
        have e : l ++ b ++ [44] ++ m = l ++ b ++ 44 :: m := by simp
        rw [e, h1]
        have hs : skipBlank (44 :: m) = some (44, m) :=
          skipBlank_some.2 ⟨[], blanks_nil, rfl, by decide⟩
        simp only [Option.bind_eq_bind, Option.bind_some, hs, makeColumnKey_num]
        rw [if_neg (by simp)]
        have hn := columnText_length hd
        refine (ih (by simp at hf; omega)).2 ⟨ds, h, by simp, by simp, ?_⟩
        simp [keyFrom]

end Maho
