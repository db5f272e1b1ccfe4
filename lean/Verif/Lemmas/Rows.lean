import Verif.Spec.Rows
import Verif.Lemmas.PrintLex
/-
The texts of rows are read as the grammar says.
-/
namespace Maho
open Spec

theorem builtString_eq (l : List Nat) : builtString l = text l := by
  simp only [builtString, text, runeBytes_eq]

theorem skipBlank_some {l : List Nat} {r : Nat} {rest : List Nat} :
    skipBlank l = some (r, rest) ↔
      ∃ a, Blanks a ∧ l = a ++ r :: rest ∧ isSpace r = false := by
  induction l with
  | nil => simp [skipBlank]
  | cons c l ih =>
    rw [skipBlank]
    cases hc : isSpace c with
    | true =>
      rw [if_pos rfl, ih]
      constructor
      · rintro ⟨a, ha, rfl, hr⟩
        refine ⟨c :: a, ?_, rfl, hr⟩
        intro x hx
        rcases List.mem_cons.1 hx with rfl | hx
        · exact hc
        · exact ha x hx
      · rintro ⟨a, ha, e, hr⟩
        cases a with
        | nil => cases e; rw [hc] at hr; cases hr
        | cons x a =>
          cases e
          exact ⟨a, fun y hy => ha y (List.mem_cons_of_mem _ hy), rfl, hr⟩
    | false =>
      rw [if_neg (by simp)]
      constructor
      · intro h; cases h
        exact ⟨[], by simp [Blanks], rfl, hc⟩
      · rintro ⟨a, ha, e, hr⟩
        cases a with
        | nil => cases e; rfl
        | cons x a =>
          cases e
          rw [ha c (by simp)] at hc; cases hc

theorem skipBlank_none {l : List Nat} : skipBlank l = none ↔ Blanks l := by
  induction l with
  | nil => simp [skipBlank, Blanks]
  | cons c l ih =>
    rw [skipBlank]
    cases hc : isSpace c with
    | true => rw [if_pos rfl, ih]; simp [Blanks, hc]
    | false => simp [Blanks, hc]

theorem readRunes_true (pred : Nat → Bool) {l s rest : List Nat} :
    readRunes pred true l = some (s, rest) ↔
      l = s ++ rest ∧ (∀ r ∈ s, pred r = true) ∧ (∀ r, rest.head? = some r → pred r = false) := by
  induction l generalizing s rest with
  | nil =>
    simp only [readRunes, if_true, Option.some.injEq, Prod.mk.injEq]
    constructor
    · rintro ⟨rfl, rfl⟩; simp
    · rintro ⟨e, _⟩
      have := List.append_eq_nil_iff.1 e.symm
      exact ⟨this.1.symm, this.2.symm⟩
  | cons c l ih =>
    rw [readRunes]
    cases hc : pred c with
    | true =>
      rw [if_pos rfl, Option.map_eq_some_iff]
      constructor
      · rintro ⟨⟨s', rest'⟩, h, e⟩
        cases e
        obtain ⟨rfl, h1, h2⟩ := ih.1 h
        refine ⟨rfl, ?_, h2⟩
        intro x hx
        rcases List.mem_cons.1 hx with rfl | hx
        · exact hc
        · exact h1 x hx
      · rintro ⟨e, h1, h2⟩
        cases s with
        | nil =>
          have := h2 c (by rw [List.nil_append] at e; rw [← e]; rfl)
          rw [hc] at this; cases this
        | cons x s =>
          cases e
          exact ⟨(s, rest), ih.2 ⟨rfl, fun y hy => h1 y (List.mem_cons_of_mem _ hy), h2⟩, rfl⟩
    | false =>
      rw [if_neg (by simp)]
      constructor
      · intro h; cases h
        exact ⟨rfl, by simp, by rintro r e; cases e; exact hc⟩
      · rintro ⟨e, h1, _⟩
        cases s with
        | nil => rw [List.nil_append] at e; rw [← e]
        | cons x s =>
          cases e
          rw [h1 c (by simp)] at hc; cases hc

theorem readRunes_false (pred : Nat → Bool) {l s rest : List Nat} :
    readRunes pred false l = some (s, rest) ↔
      ∃ r t, rest = r :: t ∧ l = s ++ r :: t ∧ (∀ r ∈ s, pred r = true) ∧ pred r = false := by
  induction l generalizing s rest with
  | nil => simp [readRunes]
  | cons c l ih =>
    rw [readRunes]
    cases hc : pred c with
    | true =>
      rw [if_pos rfl, Option.map_eq_some_iff]
      constructor
      · rintro ⟨⟨s', rest'⟩, h, e⟩
        cases e
        obtain ⟨r, t, rfl, rfl, h1, h2⟩ := ih.1 h
        refine ⟨r, t, rfl, rfl, ?_, h2⟩
        intro x hx
        rcases List.mem_cons.1 hx with rfl | hx
        · exact hc
        · exact h1 x hx
      · rintro ⟨r, t, rfl, e, h1, h2⟩
        cases s with
        | nil => cases e; rw [hc] at h2; cases h2
        | cons x s =>
          cases e
          exact ⟨(s, r :: t), ih.2 ⟨r, t, rfl, rfl, fun y hy => h1 y (List.mem_cons_of_mem _ hy), h2⟩, rfl⟩
    | false =>
      rw [if_neg (by simp)]
      constructor
      · intro h; cases h
        exact ⟨c, l, rfl, rfl, by simp, hc⟩
      · rintro ⟨r, t, rfl, e, h1, _⟩
        cases s with
        | nil => cases e; rfl
        | cons x s =>
          cases e
          rw [h1 c (by simp)] at hc; cases hc

theorem laxHexDigit_toNat (c : Byte) : (laxHexDigit c).toNat = laxDigit c.toNat := by
  have h : ∀ c : Byte, (laxHexDigit c).toNat = laxDigit c.toNat := by decide +kernel
  exact h c

theorem hexPair_eq (c d : Byte) :
    laxHexDigit c <<< 4 ||| laxHexDigit d =
      BitVec.ofNat 8 (laxDigit c.toNat * 16 % 256 ||| laxDigit d.toNat) := by
  apply BitVec.eq_of_toNat_eq
  have hc := laxHexDigit_toNat c
  have hd := laxHexDigit_toNat d
  have ld : laxDigit d.toNat < 2 ^ 8 := by rw [← hd]; exact (laxHexDigit d).isLt
  have lor : laxDigit c.toNat * 16 % 256 ||| laxDigit d.toNat < 2 ^ 8 :=
    Nat.or_lt_two_pow (by omega) ld
  rw [BitVec.toNat_ofNat, Nat.mod_eq_of_lt lor, BitVec.toNat_or, BitVec.toNat_shiftLeft, hc, hd,
    Nat.shiftLeft_eq]

theorem hexBytes_some {s b : Bytes} : hexBytes s = some b ↔ LaxPairs s b := by
  fun_induction hexBytes s generalizing b with
  | case1 =>
    constructor
    · intro h; cases h; exact .nil
    · intro h; cases h; rfl
  | case2 => exact ⟨(fun h => by cases h), (fun h => by cases h)⟩
  | case3 c d s ih =>
    rw [Option.map_eq_some_iff]
    constructor
    · rintro ⟨b', h, rfl⟩
      rw [hexPair_eq]
      exact .pair c d s b' (ih.1 h)
    · intro h
      cases h with
      | pair _ _ _ b' h => exact ⟨b', ih.2 h, by rw [hexPair_eq]⟩

/-- What can come after the text of a value without being read as a part of it. -/
def ValueEnds (env : RowEnv) : Option Value → List Nat → Prop
  | none, rest => ∀ r, rest.head? = some r → env.letter r = false
  | some (.bool _), rest => ∀ r, rest.head? = some r → env.letter r = false
  | some (.int _), rest => ∀ r, rest.head? = some r → env.digit r = false ∧ r ≠ 46
  | some (.float _), rest => ∀ r, rest.head? = some r → env.digit r = false ∧ r ≠ 46
  | _, _ => True

theorem parseQuoted_some (env : RowEnv) {l : List Nat} {v : Value} {rest : List Nat} :
    parseQuoted l = some (v, rest) ↔
      ∃ m, 39 :: l = m ++ rest ∧ ValueText env (some v) m ∧
        ((∃ s, v = .str s) ∨ ∃ b, v = .bytes b) := by
  have hq : ∀ {s : List Nat}, (∀ r ∈ s, (decide (r ≠ 39)) = true) ↔ 39 ∉ s := by
    intro s
    simp only [decide_eq_true_eq]
    exact ⟨fun h hm => h 39 hm rfl, fun h r hr e => h (e ▸ hr)⟩
  constructor
  · intro h
    cases l with
    | nil => cases h
    | cons r l =>
      rw [parseQuoted.eq_def] at h
      dsimp only at h
      by_cases h92 : r = 92
      · subst h92
        rw [if_pos rfl] at h
        cases l with
        | nil => cases h
        | cons x l =>
          by_cases hx : x ≠ 120 ∧ x ≠ 88
          · simp [hx] at h
          · simp only [if_neg hx] at h
            cases hr : readRunes (fun r => decide (r ≠ 39)) false l with
            | none => rw [hr] at h; cases h
            | some p =>
              obtain ⟨s, rest'⟩ := p
              simp only [hr, Option.bind_eq_bind, Option.bind_some] at h
              cases hb : hexBytes (builtString s) with
              | none => rw [hb] at h; cases h
              | some b =>
                rw [hb] at h
                cases h
                obtain ⟨c, t, rfl, rfl, h1, h2⟩ := (readRunes_false _).1 hr
                have hc : c = 39 := by simpa using h2
                subst hc
                rw [builtString_eq] at hb
                refine ⟨[39, 92, x] ++ s ++ [39], by simp, ⟨x, s, rfl, by omega, hq.1 h1,
                  hexBytes_some.1 hb⟩, .inr ⟨b, rfl⟩⟩
      · rw [if_neg h92] at h
        by_cases h39 : r = 39
        · rw [if_pos h39] at h
          cases h
          subst h39
          exact ⟨[39, 39], rfl, ⟨[], rfl, by simp, by simp, rfl⟩, .inl ⟨_, rfl⟩⟩
        · rw [if_neg h39] at h
          cases hr : readRunes (fun r => decide (r ≠ 39)) false l with
          | none => rw [hr] at h; cases h
          | some p =>
            obtain ⟨s, rest'⟩ := p
            rw [hr] at h
            cases h
            obtain ⟨c, t, rfl, rfl, h1, h2⟩ := (readRunes_false _).1 hr
            have hc : c = 39 := by simpa using h2
            subst hc
            refine ⟨[39] ++ (r :: s) ++ [39], by simp, ⟨r :: s, rfl, ?_, by simpa using h92, ?_⟩,
              .inl ⟨_, rfl⟩⟩
            · intro hm
              rcases List.mem_cons.1 hm with e | hm
              · exact h39 e.symm
              · exact hq.1 h1 hm
            · rw [builtString_eq]
              by_cases h0 : r = 0 <;> simp [firstRune, h0]
  · rintro ⟨m, e, hv, hk⟩
    rcases hk with ⟨s, rfl⟩ | ⟨b, rfl⟩
    · obtain ⟨m, rfl, h39, h92, rfl⟩ := hv
      cases m with
      | nil =>
        cases e
        rfl
      | cons r m =>
        have e' : l = r :: (m ++ 39 :: rest) := by simpa using e
        subst e'
        have hr92 : r ≠ 92 := fun e => h92 (by rw [e]; rfl)
        have hr39 : r ≠ 39 := fun e => h39 (by simp [e])
        have hr : readRunes (fun r => decide (r ≠ 39)) false (m ++ 39 :: rest) =
            some (m, 39 :: rest) :=
          (readRunes_false _).2 ⟨39, rest, rfl, rfl, hq.2 fun h => h39 (List.mem_cons_of_mem _ h),
            by simp⟩
        rw [parseQuoted.eq_def]
        dsimp only
        rw [if_neg hr92, if_neg hr39, hr]
        simp only [Option.bind_eq_bind, Option.bind_some, builtString_eq]
        by_cases h0 : r = 0 <;> simp [firstRune, h0]
    · obtain ⟨x, m, rfl, hx, h39, hb⟩ := hv
      have e' : l = 92 :: x :: (m ++ 39 :: rest) := by simpa using e
      subst e'
      have hr : readRunes (fun r => decide (r ≠ 39)) false (m ++ 39 :: rest) =
          some (m, 39 :: rest) :=
        (readRunes_false _).2 ⟨39, rest, rfl, rfl, hq.2 h39, by simp⟩
      rw [parseQuoted.eq_def]
      dsimp only
      rw [if_pos rfl]
      simp only [if_neg (show ¬ (x ≠ 120 ∧ x ≠ 88) by omega), hr, Option.bind_eq_bind,
        Option.bind_some, builtString_eq, hexBytes_some.2 hb]
      rfl

theorem parseInt64_point (t : Bytes) : parseInt64 (46#8 :: t) = none := by
  simp [parseInt64, parseDigits, isDigit]

/-- An integer among digits and points is a numeral. -/
theorem parseInt64_points {env : ScanEnv} {l : List Nat} (hne : l ≠ [])
    (hl : ∀ r ∈ l, env.digit r = true ∨ r = 46) {i : BitVec 64} :
    parseInt64 (text l) = some i ↔ ∃ n, Numeral l n ∧ n < 2 ^ 63 ∧ i.toInt = n := by
  cases l with
  | nil => exact absurd rfl hne
  | cons r l =>
    rcases hl r (by simp) with hr | rfl
    · exact parseInt64_text hr
    · rw [text_cons, runeText_ascii (by decide)]
      constructor
      · intro h
        rw [List.singleton_append, show BitVec.ofNat 8 46 = 46#8 from rfl, parseInt64_point] at h
        cases h
      · rintro ⟨n, hn, _⟩
        have := hn.2.1 46 (by simp)
        omega

theorem numeral_digits {env : ScanEnv} {l : List Nat} {n : Nat} (h : Numeral l n) :
    ∀ r ∈ l, env.digit r = true := by
  intro r hr
  have := h.2.1 r hr
  rw [env.digit_ascii r (by omega)]
  simp; omega

theorem text_ne_nil {l : List Nat} {b : Bytes} (h : text l = b) (hb : b ≠ []) : l ≠ [] := by
  rintro rfl
  exact hb h.symm

theorem digit_letter_point {env : RowEnv} : env.letter 46 = false := by
  rw [env.letter_ascii 46 (by decide)]; decide

theorem space_point {r : Nat} (h : r = 46) : isSpace r = false := by subst h; decide

theorem firstRune_pos {r : Nat} (h : r ≠ 0) : firstRune r = [r] := by simp [firstRune, h]

theorem parseValue_some {env : RowEnv} {l : List Nat} {v : Option Value} {rest : List Nat} :
    parseValue env l = some (v, rest) ↔
      ∃ a m, Blanks a ∧ l = a ++ m ++ rest ∧ ValueText env v m ∧ ValueEnds env v rest := by
  have hpoint : ∀ r, (env.digit r || r == 46) = true ↔ env.digit r = true ∨ r = 46 := by
    intro r; simp
  have hnpoint : ∀ r, (env.digit r || r == 46) = false ↔ env.digit r = false ∧ r ≠ 46 := by
    intro r; simp
  have d0 : env.digit 0 = false := by rw [env.digit_ascii 0 (by decide)]; decide
  have l0 : env.letter 0 = false := by rw [env.letter_ascii 0 (by decide)]; decide
  have d39 : env.digit 39 = false := by rw [env.digit_ascii 39 (by decide)]; decide
  have l39 : env.letter 39 = false := by rw [env.letter_ascii 39 (by decide)]; decide
  constructor
  · intro h
    unfold parseValue at h
    cases hs : skipBlank l with
    | none => rw [hs] at h; cases h
    | some p =>
      obtain ⟨r, l'⟩ := p
      obtain ⟨a, ha, rfl, hr⟩ := skipBlank_some.1 hs
      rw [hs] at h
      simp only [Option.bind_eq_bind, Option.bind_some] at h
      by_cases hd : env.digit r = true ∨ r = 46
      · rw [if_pos hd] at h
        cases hrd : readRunes (fun r => env.digit r || r == 46) true l' with
        | none => rw [hrd] at h; cases h
        | some p =>
          obtain ⟨s, rest'⟩ := p
          obtain ⟨rfl, h1, h2⟩ := (readRunes_true _).1 hrd
          have h0 : r ≠ 0 := by rintro rfl; simp [d0] at hd
          have hall : ∀ x ∈ r :: s, env.digit x = true ∨ x = 46 := by
            intro x hx
            rcases List.mem_cons.1 hx with rfl | hx
            · exact hd
            · exact (hpoint x).1 (h1 x hx)
          simp only [hrd, Option.bind_some, builtString_eq, firstRune_pos h0,
            List.singleton_append] at h
          cases hi : parseInt64 (text (r :: s)) with
          | some i =>
            rw [hi] at h
            cases h
            refine ⟨a, r :: s, ha, by simp, (parseInt64_points (by simp) hall).1 hi, ?_⟩
            exact fun x hx => (hnpoint x).1 (h2 x hx)
          | none =>
            rw [hi] at h
            dsimp only at h
            cases hf : env.parseFloat (text (r :: s)) with
            | none => rw [hf] at h; cases h
            | some f =>
              rw [hf] at h
              cases h
              refine ⟨a, r :: s, ha, by simp, ⟨by simp, hall, ?_, hf⟩, ?_⟩
              · intro n hn
                apply Nat.le_of_not_lt
                intro hlt
                have := (parseInt64_points (i := BitVec.ofNat 64 n) (by simp) hall).2
                  ⟨n, hn, hlt, by
                    rw [BitVec.toInt_eq_toNat_of_lt] <;> rw [BitVec.toNat_ofNat] <;> omega⟩
                rw [hi] at this; cases this
              · exact fun x hx => (hnpoint x).1 (h2 x hx)
      · rw [if_neg hd] at h
        by_cases hl : env.letter r = true
        · rw [if_pos hl] at h
          cases hrd : readRunes env.letter true l' with
          | none => rw [hrd] at h; cases h
          | some p =>
            obtain ⟨s, rest'⟩ := p
            obtain ⟨rfl, h1, h2⟩ := (readRunes_true _).1 hrd
            have h0 : r ≠ 0 := by rintro rfl; simp [l0] at hl
            have hall : ∀ x ∈ r :: s, env.letter x = true := by
              intro x hx
              rcases List.mem_cons.1 hx with rfl | hx
              · exact hl
              · exact h1 x hx
            simp only [hrd, Option.bind_some, builtString_eq, firstRune_pos h0,
              List.singleton_append] at h
            by_cases ht : text ((r :: s).map env.lower) = ascii "true"
            · rw [if_pos ht] at h; cases h
              exact ⟨a, r :: s, ha, by simp, ⟨hall, ht⟩, h2⟩
            · rw [if_neg ht] at h
              by_cases hf : text ((r :: s).map env.lower) = ascii "false"
              · rw [if_pos hf] at h; cases h
                exact ⟨a, r :: s, ha, by simp, ⟨hall, hf⟩, h2⟩
              · rw [if_neg hf] at h
                by_cases hn : text ((r :: s).map env.lower) = ascii "null"
                · rw [if_pos hn] at h; cases h
                  exact ⟨a, r :: s, ha, by simp, ⟨hall, hn⟩, h2⟩
                · rw [if_neg hn] at h; cases h
        · rw [if_neg hl] at h
          by_cases h39 : r = 39
          · subst h39
            rw [if_neg (by simp), Option.map_eq_some_iff] at h
            obtain ⟨⟨w, rest'⟩, h, e⟩ := h
            cases e
            obtain ⟨m, e, hv, hk⟩ := (parseQuoted_some env).1 h
            refine ⟨a, m, ha, by rw [e, List.append_assoc], hv, ?_⟩
            rcases hk with ⟨s, rfl⟩ | ⟨b, rfl⟩ <;> trivial
          · rw [if_pos h39] at h; cases h
  · rintro ⟨a, m, ha, rfl, hv, he⟩
    have skip : ∀ r s, isSpace r = false → skipBlank (a ++ (r :: s) ++ rest) = some (r, s ++ rest) :=
      fun r s hr => skipBlank_some.2 ⟨a, ha, by simp, hr⟩
    have number : ∀ r s, (∀ x ∈ r :: s, env.digit x = true ∨ x = 46) →
        (∀ x, rest.head? = some x → env.digit x = false ∧ x ≠ 46) →
        parseValue env (a ++ (r :: s) ++ rest) =
          match parseInt64 (text (r :: s)) with
          | some i => some (some (.int i), rest)
          | none =>
            match env.parseFloat (text (r :: s)) with
            | some f => some (some (.float f), rest)
            | none => none := by
      intro r s hall hend
      have hd := hall r (by simp)
      have h0 : r ≠ 0 := by rintro rfl; simp [d0] at hd
      have hsp : isSpace r = false := by
        cases hs : isSpace r with
        | false => rfl
        | true =>
          rcases hd with hd | rfl
          · rw [env.space_digit r hs] at hd; cases hd
          · exact absurd hs (by decide)
      have hrd : readRunes (fun r => env.digit r || r == 46) true (s ++ rest) = some (s, rest) :=
        (readRunes_true _).2 ⟨rfl, fun x hx => (hpoint x).2 (hall x (List.mem_cons_of_mem _ hx)),
          fun x hx => (hnpoint x).2 (hend x hx)⟩
      unfold parseValue
      rw [skip r s hsp]
      simp only [Option.bind_eq_bind, Option.bind_some, if_pos hd, hrd, builtString_eq,
        firstRune_pos h0, List.singleton_append]
      rfl
    have word : ∀ r s, (∀ x ∈ r :: s, env.letter x = true) →
        (∀ x, rest.head? = some x → env.letter x = false) →
        parseValue env (a ++ (r :: s) ++ rest) =
          if text ((r :: s).map env.lower) = ascii "true" then some (some (.bool true), rest)
          else if text ((r :: s).map env.lower) = ascii "false" then
            some (some (.bool false), rest)
          else if text ((r :: s).map env.lower) = ascii "null" then some (none, rest)
          else none := by
      intro r s hall hend
      have hl := hall r (by simp)
      have h0 : r ≠ 0 := by rintro rfl; simp [l0] at hl
      have hd : ¬ (env.digit r = true ∨ r = 46) := by
        rintro (hd | rfl)
        · rw [env.letter_digit r hl] at hd; cases hd
        · rw [digit_letter_point] at hl; cases hl
      have hsp : isSpace r = false := by
        cases hs : isSpace r with
        | false => rfl
        | true => rw [env.space_letter r hs] at hl; cases hl
      have hrd : readRunes env.letter true (s ++ rest) = some (s, rest) :=
        (readRunes_true _).2 ⟨rfl, fun x hx => hall x (List.mem_cons_of_mem _ hx), hend⟩
      unfold parseValue
      rw [skip r s hsp]
      simp only [Option.bind_eq_bind, Option.bind_some, if_neg hd, if_pos hl, hrd, builtString_eq,
        firstRune_pos h0, List.singleton_append]
      rfl
    have quoted : ∀ s w, parseQuoted (s ++ rest) = some (w, rest) →
        parseValue env (a ++ (39 :: s) ++ rest) = some (some w, rest) := by
      intro s w hq
      unfold parseValue
      rw [skip 39 s (by decide)]
      simp only [Option.bind_eq_bind, Option.bind_some]
      rw [if_neg (by simp [d39]), if_neg (by simp [l39]), if_neg (by simp), hq]
      rfl
    cases v with
    | none =>
      cases m with
      | nil => exact absurd (show text [] = ascii "null" from hv.2) (by decide)
      | cons r s =>
        rw [word r s hv.1 he, hv.2]
        rfl
    | some v =>
      cases v with
      | bool b =>
        cases m with
        | nil =>
          exact absurd (show text [] = ascii (if b then "true" else "false") from hv.2)
            (by cases b <;> decide)
        | cons r s =>
          rw [word r s hv.1 he, hv.2]
          cases b <;> rfl
      | int i =>
        obtain ⟨n, hn, hlt, hi⟩ := hv
        cases m with
        | nil => exact absurd rfl hn.1
        | cons r s =>
          have hall : ∀ x ∈ r :: s, env.digit x = true ∨ x = 46 :=
            fun x hx => .inl (numeral_digits hn x hx)
          rw [number r s hall he, (parseInt64_points (by simp) hall).2 ⟨n, hn, hlt, hi⟩]
      | float f =>
        obtain ⟨hne, hall, hbig, hf⟩ := hv
        cases m with
        | nil => exact absurd rfl hne
        | cons r s =>
          rw [number r s hall he]
          cases hi : parseInt64 (text (r :: s)) with
          | some i =>
            obtain ⟨n, hn, hlt, _⟩ := (parseInt64_points (by simp) hall).1 hi
            exact absurd (hbig n hn) (by omega)
          | none => rw [hf]
      | str s =>
        have hm := hv
        obtain ⟨m, rfl, _⟩ := hv
        exact quoted (m ++ [39]) _
          ((parseQuoted_some env).2 ⟨_, by simp, hm, .inl ⟨_, rfl⟩⟩)
      | bytes b =>
        have hm := hv
        obtain ⟨x, m, rfl, _⟩ := hv
        exact quoted (92 :: x :: m ++ [39]) _
          ((parseQuoted_some env).2 ⟨_, by simp, hm, .inr ⟨_, rfl⟩⟩)

/-! ### Rows -/

theorem head_blanks {b t : List Nat} {c x : Nat} (hb : Blanks b)
    (h : (b ++ c :: t).head? = some x) : isSpace x = true ∨ x = c := by
  cases b with
  | nil => exact .inr (by cases h; rfl)
  | cons y b => cases h; exact .inl (hb _ (by simp))

/-- A value ends before white space, a comma or a parenthesis. -/
theorem valueEnds_of {env : RowEnv} {b t : List Nat} {c : Nat} (hb : Blanks b) (hc : c = 41 ∨ c = 44)
    (v : Option Value) : ValueEnds env v (b ++ c :: t) := by
  have hl : ∀ x, (b ++ c :: t).head? = some x → env.letter x = false := by
    intro x hx
    rcases head_blanks hb hx with h | rfl
    · exact env.space_letter x h
    · rcases hc with rfl | rfl <;> (rw [env.letter_ascii _ (by decide)]; decide)
  have hd : ∀ x, (b ++ c :: t).head? = some x → env.digit x = false ∧ x ≠ 46 := by
    intro x hx
    rcases head_blanks hb hx with h | rfl
    · exact ⟨env.space_digit x h, by rintro rfl; exact absurd h (by decide)⟩
    · rcases hc with rfl | rfl <;>
        exact ⟨by rw [env.digit_ascii _ (by decide)]; decide, by decide⟩
  cases v with
  | none => exact hl
  | some v => cases v <;> first | exact hl | exact hd | trivial

theorem parseRowLoop_sound {env : RowEnv} : ∀ {fuel : Nat} {l : List Nat} {row : Row}
    {rest : List Nat}, parseRowLoop env fuel l = some (row, rest) →
      ∃ m, l = m ++ rest ∧ ValuesText env row m
  | 0, _, _, _, h => by cases h
  | fuel + 1, l, row, rest, h => by
    rw [parseRowLoop] at h
    cases hv : parseValue env l with
    | none => rw [hv] at h; cases h
    | some p =>
      obtain ⟨v, l'⟩ := p
      rw [hv] at h
      simp only [Option.bind_eq_bind, Option.bind_some] at h
      obtain ⟨a, m, ha, rfl, hm, _⟩ := parseValue_some.1 hv
      cases hs : skipBlank l' with
      | none => rw [hs] at h; cases h
      | some p =>
        obtain ⟨r, l''⟩ := p
        rw [hs] at h
        simp only [Option.bind_some] at h
        obtain ⟨b, hb, rfl, _⟩ := skipBlank_some.1 hs
        by_cases h41 : r = 41
        · rw [if_pos h41] at h
          cases h
          subst h41
          exact ⟨_, by simp, .last v a m b ha hm hb⟩
        · rw [if_neg h41] at h
          by_cases h44 : r = 44
          · subst h44
            rw [if_neg (by simp)] at h
            cases hr : parseRowLoop env fuel l'' with
            | none => rw [hr] at h; cases h
            | some p =>
              obtain ⟨row', rest'⟩ := p
              rw [hr] at h
              cases h
              obtain ⟨k, rfl, hk⟩ := parseRowLoop_sound hr
              exact ⟨_, by simp, .more v a m b row' k ha hm hb hk⟩
          · rw [if_pos h44] at h; cases h

theorem parseRowLoop_complete {env : RowEnv} {row : Row} {m : List Nat}
    (h : ValuesText env row m) : ∀ (fuel : Nat) (rest : List Nat), m.length ≤ fuel →
      parseRowLoop env fuel (m ++ rest) = some (row, rest) := by
  induction h with
  | last v a m b ha hm hb =>
    intro fuel rest hf
    cases fuel with
    | zero => simp at hf
    | succ fuel =>
      have hv : parseValue env (a ++ m ++ b ++ [41] ++ rest) = some (v, b ++ 41 :: rest) :=
        parseValue_some.2 ⟨a, m, ha, by simp, hm, valueEnds_of hb (.inl rfl) v⟩
      rw [parseRowLoop, hv]
      simp only [Option.bind_eq_bind, Option.bind_some]
      rw [skipBlank_some.2 ⟨b, hb, rfl, by decide⟩]
      rfl
  | more v a m b row l ha hm hb _ ih =>
    intro fuel rest hf
    cases fuel with
    | zero => simp at hf
    | succ fuel =>
      have hv : parseValue env (a ++ m ++ b ++ [44] ++ l ++ rest) = some (v, b ++ 44 :: (l ++ rest)) :=
        parseValue_some.2 ⟨a, m, ha, by simp, hm, valueEnds_of hb (.inr rfl) v⟩
      rw [parseRowLoop, hv]
      simp only [Option.bind_eq_bind, Option.bind_some]
      rw [skipBlank_some.2 ⟨b, hb, rfl, by decide⟩]
      simp only [Option.bind_some]
      rw [if_neg (by decide), if_neg (by decide),
        ih fuel rest (by simp only [List.length_append, List.length_singleton] at hf; omega)]
      rfl

theorem parseRow_some {env : RowEnv} {l : List Nat} {row : Row} {rest : List Nat} :
    parseRow env l = some (row, rest) ↔
      ∃ a m, Blanks a ∧ l = a ++ [40] ++ m ++ rest ∧ ValuesText env row m := by
  constructor
  · intro h
    unfold parseRow at h
    cases hs : skipBlank l with
    | none => rw [hs] at h; cases h
    | some p =>
      obtain ⟨r, l'⟩ := p
      rw [hs] at h
      simp only [Option.bind_eq_bind, Option.bind_some] at h
      obtain ⟨a, ha, rfl, _⟩ := skipBlank_some.1 hs
      by_cases h40 : r = 40
      · subst h40
        rw [if_neg (by simp)] at h
        obtain ⟨m, rfl, hm⟩ := parseRowLoop_sound h
        exact ⟨a, m, ha, by simp, hm⟩
      · rw [if_pos h40] at h; cases h
  · rintro ⟨a, m, ha, rfl, hm⟩
    unfold parseRow
    rw [show a ++ [40] ++ m ++ rest = a ++ 40 :: (m ++ rest) by simp,
      skipBlank_some.2 ⟨a, ha, rfl, by decide⟩]
    simp only [Option.bind_eq_bind, Option.bind_some]
    rw [if_neg (by decide), parseRowLoop_complete hm _ _ (by simp)]

theorem parseRowsLoop_sound {env : RowEnv} : ∀ {fuel : Nat} {l : List Nat} {rows : List Row},
    parseRowsLoop env fuel l = some rows → RowsText env rows l
  | 0, _, _, h => by cases h
  | fuel + 1, l, rows, h => by
    rw [parseRowsLoop] at h
    cases hv : parseRow env l with
    | none => rw [hv] at h; cases h
    | some p =>
      obtain ⟨row, l'⟩ := p
      rw [hv] at h
      simp only [Option.bind_eq_bind, Option.bind_some] at h
      obtain ⟨a, m, ha, rfl, hm⟩ := parseRow_some.1 hv
      cases hs : skipBlank l' with
      | none =>
        rw [hs] at h
        cases h
        exact .last row a m l' ha hm (skipBlank_none.1 hs)
      | some p =>
        obtain ⟨r, l''⟩ := p
        rw [hs] at h
        dsimp only at h
        obtain ⟨b, hb, rfl, _⟩ := skipBlank_some.1 hs
        by_cases h44 : r = 44
        · subst h44
          rw [if_neg (by simp)] at h
          cases hr : parseRowsLoop env fuel l'' with
          | none => rw [hr] at h; cases h
          | some rows' =>
            rw [hr] at h
            cases h
            have := RowsText.more row a m b rows' l'' ha hm hb (parseRowsLoop_sound hr)
            simpa using this
        · rw [if_pos h44] at h; cases h

theorem parseRowsLoop_complete {env : RowEnv} {rows : List Row} {l : List Nat}
    (h : RowsText env rows l) : ∀ (fuel : Nat), l.length ≤ fuel →
      parseRowsLoop env fuel l = some rows := by
  induction h with
  | last row a l b ha hl hb =>
    intro fuel hf
    cases fuel with
    | zero => simp at hf
    | succ fuel =>
      rw [parseRowsLoop, parseRow_some.2 ⟨a, l, ha, rfl, hl⟩]
      simp only [Option.bind_eq_bind, Option.bind_some]
      rw [skipBlank_none.2 hb]
      rfl
  | more row a l b rows m ha hl hb _ ih =>
    intro fuel hf
    cases fuel with
    | zero => simp at hf
    | succ fuel =>
      rw [parseRowsLoop, show a ++ [40] ++ l ++ b ++ [44] ++ m = a ++ [40] ++ l ++ (b ++ 44 :: m) by
        simp, parseRow_some.2 ⟨a, l, ha, rfl, hl⟩]
      simp only [Option.bind_eq_bind, Option.bind_some]
      rw [skipBlank_some.2 ⟨b, hb, rfl, by decide⟩]
      dsimp only
      rw [if_neg (by decide),
        ih fuel (by simp only [List.length_append, List.length_singleton] at hf; omega)]
      rfl

theorem parseRows_some {env : RowEnv} {l : List Nat} {rows : List Row} :
    parseRows env l = some rows ↔ RowsText env rows l :=
  ⟨parseRowsLoop_sound, fun h => parseRowsLoop_complete h _ (Nat.le_refl _)⟩

/-! ### Printed rows -/

theorem laxPairs_print (b : Bytes) :
    LaxPairs (b.flatMap fun v => [lowerHex (v.toNat / 16), lowerHex (v.toNat % 16)]) b := by
  induction b with
  | nil => exact .nil
  | cons v b ih =>
    have h : ∀ v : Byte, BitVec.ofNat 8 (laxDigit (lowerHex (v.toNat / 16)).toNat * 16 % 256 |||
        laxDigit (lowerHex (v.toNat % 16)).toNat) = v := by decide +kernel
    have := LaxPairs.pair (lowerHex (v.toNat / 16)) (lowerHex (v.toNat % 16)) _ b ih
    rw [h v] at this
    exact this

theorem lowerHex_ascii : ∀ n < 16, (lowerHex n).toNat < 128 ∧ (lowerHex n).toNat ≠ 39 := by decide

/-- The text of a readable value is read as this value. -/
theorem formatValue_text {env : RowEnv} {v : Option Value} (h : ReadableValue env v) :
    ∃ l, Encodes l (formatValue env.toParseEnv v) ∧ ValueText env v l := by
  cases v with
  | none =>
    refine ⟨[78, 85, 76, 76], encodes_ascii (by decide) (show _ = ascii "NULL" by decide), ?_, ?_⟩
    · intro r hr
      have : r = 78 ∨ r = 85 ∨ r = 76 := by simpa using hr
      rcases this with rfl | rfl | rfl <;> (rw [env.letter_ascii _ (by decide)]; decide)
    · simp only [List.map_cons, List.map_nil]
      rw [env.lower_ascii 78 (by decide), env.lower_ascii 85 (by decide),
        env.lower_ascii 76 (by decide)]
      decide
  | some v =>
    cases v with
    | bool b =>
      cases b
      · refine ⟨[102, 97, 108, 115, 101], encodes_ascii (by decide)
          (show _ = ascii "false" by decide), ?_, ?_⟩
        · intro r hr
          have : r = 102 ∨ r = 97 ∨ r = 108 ∨ r = 115 ∨ r = 101 := by simpa using hr
          rcases this with rfl | rfl | rfl | rfl | rfl <;>
            (rw [env.letter_ascii _ (by decide)]; decide)
        · simp only [List.map_cons, List.map_nil]
          rw [env.lower_ascii 102 (by decide), env.lower_ascii 97 (by decide),
            env.lower_ascii 108 (by decide), env.lower_ascii 115 (by decide),
            env.lower_ascii 101 (by decide)]
          decide
      · refine ⟨[116, 114, 117, 101], encodes_ascii (by decide)
          (show _ = ascii "true" by decide), ?_, ?_⟩
        · intro r hr
          have : r = 116 ∨ r = 114 ∨ r = 117 ∨ r = 101 := by simpa using hr
          rcases this with rfl | rfl | rfl | rfl <;>
            (rw [env.letter_ascii _ (by decide)]; decide)
        · simp only [List.map_cons, List.map_nil]
          rw [env.lower_ascii 116 (by decide), env.lower_ascii 114 (by decide),
            env.lower_ascii 117 (by decide), env.lower_ascii 101 (by decide)]
          decide
    | int i =>
      have hlt := BitVec.toInt_lt (x := i)
      have hd := natDigits_decimal i.toInt.natAbs
      have h0 : 0 ≤ i.toInt := h
      refine ⟨source (natDigits i.toInt.natAbs), ?_, i.toInt.natAbs, numeral_source hd, by omega,
        by omega⟩
      have e : formatValue env.toParseEnv (some (.int i)) = natDigits i.toInt.natAbs := by
        simp [formatValue, ParseEnv.valueString, formatInt, show ¬ i.toInt < 0 by omega]
      rw [e]
      refine encodes_source fun c hc => ?_
      have := hd.2.1 c hc
      omega
    | float f =>
      obtain ⟨l, hl, hp, ht, hf⟩ := h
      refine ⟨l, encodes_ascii (fun r hr => ?_) ht, ?_, fun r hr => ?_, fun n hn => ?_, hf⟩
      · have := hl r hr; omega
      · rintro rfl; cases hp
      · rcases hl r hr with h | h
        · exact .inl (by rw [env.digit_ascii r (by omega)]; simp; omega)
        · exact .inr h
      · have := hn.2.1 46 hp; omega
    | str s =>
      obtain ⟨l, hl, h39, h92, h0⟩ := h
      refine ⟨[39] ++ l ++ [39], ?_, l, rfl, h39, h92, by rw [if_neg h0, hl.2]⟩
      exact .append (.append (encodes_ascii (by simp) rfl) hl) (encodes_ascii (by simp) rfl)
    | bytes b =>
      have hx : ∀ c ∈ b.flatMap (fun v => [lowerHex (v.toNat / 16), lowerHex (v.toNat % 16)]),
          c.toNat < 128 ∧ c.toNat ≠ 39 := by
        intro c hc
        obtain ⟨v, _, hv⟩ := List.mem_flatMap.1 hc
        have hv' : c = lowerHex (v.toNat / 16) ∨ c = lowerHex (v.toNat % 16) := by simpa using hv
        have := v.isLt
        rcases hv' with rfl | rfl
        · exact lowerHex_ascii _ (by omega)
        · exact lowerHex_ascii _ (by omega)
      refine ⟨[39, 92, 120] ++ source (b.flatMap fun v =>
        [lowerHex (v.toNat / 16), lowerHex (v.toNat % 16)]) ++ [39], ?_, 120, _, rfl, .inl rfl, ?_, ?_⟩
      · exact .append (.append (encodes_ascii (by simp) (by decide))
          (encodes_source fun c hc => (hx c hc).1)) (encodes_ascii (by simp) rfl)
      · intro hm
        obtain ⟨c, hc, e⟩ := List.mem_map.1 hm
        exact (hx c hc).2 e
      · rw [text_source fun c hc => (hx c hc).1]
        exact laxPairs_print b

theorem blanks_nil : Blanks [] := by intro r hr; cases hr

theorem blanks_space : Blanks [32] := by
  intro r hr; rw [List.mem_singleton.1 hr]; decide

theorem formatValues_text {env : RowEnv} : ∀ {row : Row}, row ≠ [] →
    (∀ v ∈ row, ReadableValue env v) → ∀ a, Blanks a →
    ∃ l, Encodes l (formatValues env.toParseEnv row ++ ascii ")") ∧ ValuesText env row (a ++ l)
  | [], h, _, _, _ => absurd rfl h
  | [v], _, h, a, ha => by
    obtain ⟨l, h1, h2⟩ := formatValue_text (h v (by simp))
    refine ⟨l ++ [41], .append h1 (encodes_ascii (by simp) rfl), ?_⟩
    have := ValuesText.last v a l [] ha h2 blanks_nil
    simpa using this
  | v :: w :: row, _, h, a, ha => by
    obtain ⟨l, h1, h2⟩ := formatValue_text (h v (by simp))
    obtain ⟨m, h3, h4⟩ := formatValues_text (env := env) (row := w :: row) (by simp)
      (fun x hx => h x (List.mem_cons_of_mem _ hx)) [32] blanks_space
    refine ⟨l ++ ([44, 32] ++ m), ?_, ?_⟩
    · have := h1.append ((encodes_ascii (l := [44, 32]) (b := ascii ", ") (by simp) (by decide)).append h3)
      simpa [formatValues] using this
    · have := ValuesText.more v a l [] (w :: row) ([32] ++ m) ha h2 blanks_nil h4
      simpa using this

theorem rowString_text {env : RowEnv} {row : Row} (hne : row ≠ [])
    (h : ∀ v ∈ row, ReadableValue env v) :
    ∃ l, Encodes ([40] ++ l) (rowString env.toParseEnv row) ∧ ValuesText env row l := by
  obtain ⟨l, h1, h2⟩ := formatValues_text hne h [] blanks_nil
  refine ⟨l, ?_, h2⟩
  have := (encodes_ascii (l := [40]) (b := ascii "(") (by simp) rfl).append h1
  simpa [rowString] using this

theorem formatRows_text {env : RowEnv} {a b : List Nat} {sep : Bytes}
    (hsep : Encodes (a ++ [44] ++ b) sep) (ha : Blanks a) (hb : Blanks b) :
    ∀ {rows : List Row}, rows ≠ [] → (∀ row ∈ rows, row ≠ [] ∧ ∀ v ∈ row, ReadableValue env v) →
    ∀ c, Blanks c →
    ∃ l, Encodes l (formatRows env.toParseEnv sep rows) ∧ RowsText env rows (c ++ l)
  | [], h, _, _, _ => absurd rfl h
  | [row], _, h, c, hc => by
    obtain ⟨l, h1, h2⟩ := rowString_text (h row (by simp)).1 (h row (by simp)).2
    refine ⟨[40] ++ l, h1, ?_⟩
    have := RowsText.last row c l [] hc h2 blanks_nil
    simpa using this
  | row :: row' :: rows, _, h, c, hc => by
    obtain ⟨l, h1, h2⟩ := rowString_text (h row (by simp)).1 (h row (by simp)).2
    obtain ⟨m, h3, h4⟩ := formatRows_text hsep ha hb (rows := row' :: rows) (by simp)
      (fun x hx => h x (List.mem_cons_of_mem _ hx)) b hb
    refine ⟨([40] ++ l) ++ (a ++ [44] ++ b) ++ m, ?_, ?_⟩
    · have := (h1.append hsep).append h3
      simpa [formatRows] using this
    · have := RowsText.more row c l a (row' :: rows) (b ++ m) hc h2 ha h4
      simpa using this

end Maho
