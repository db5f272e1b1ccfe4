import Verif.Lemmas.Value
import Verif.Spec.Scan
/-
Lemmas about the scanner.
-/
namespace Maho
open Spec

/-! ### Runes -/

theorem or_add (k x : Nat) (hk : k ∈ [0x80, 0xC0, 0xE0, 0xF0]) (hx : x < 64)
    (h : k = 0xE0 → x < 16) (h2 : k = 0xF0 → x < 8) (h3 : k = 0xC0 → x < 32) :
    k ||| x = k + x := by
  have h80 : ∀ x < 64, 0x80 ||| x = 0x80 + x := by decide
  have hC0 : ∀ x < 32, 0xC0 ||| x = 0xC0 + x := by decide
  have hE0 : ∀ x < 16, 0xE0 ||| x = 0xE0 + x := by decide
  have hF0 : ∀ x < 8, 0xF0 ||| x = 0xF0 + x := by decide
  simp only [List.mem_cons, List.not_mem_nil, or_false] at hk
  rcases hk with rfl | rfl | rfl | rfl
  · exact h80 x hx
  · exact hC0 x (h3 rfl)
  · exact hE0 x (h rfl)
  · exact hF0 x (h2 rfl)

theorem and_63 (x : Nat) : x &&& 0x3F = x % 64 := Nat.and_two_pow_sub_one_eq_mod x 6

theorem runeBytes_eq (r : Nat) : runeBytes r = runeText r := by
  unfold runeBytes runeText utf8Encode
  have h0 : ¬ ((r : Int) < 0) := by omega
  simp only [if_neg h0, Int.toNat_natCast, Nat.shiftRight_eq_div_pow, and_63]
  by_cases h1 : r ≤ 0x7F
  · have : r < 0xD800 ∨ (0xE000 ≤ r ∧ r < 0x110000) := by omega
    simp [h1, this, show r < 0x80 by omega]
  · by_cases h2 : r ≤ 0x7FF
    · have : r < 0xD800 ∨ (0xE000 ≤ r ∧ r < 0x110000) := by omega
      simp only [if_neg h1, if_pos h2, if_pos this, if_neg (show ¬ r < 0x80 by omega),
        if_pos (show r < 0x800 by omega)]
      rw [or_add 0xC0 _ (by simp) (by omega) (by omega) (by omega) (by omega),
        or_add 0x80 _ (by simp) (by omega) (by omega) (by omega) (by omega)]
    · by_cases h3 : r > 0x10FFFF ∨ (0xD800 ≤ r ∧ r ≤ 0xDFFF)
      · have : ¬ (r < 0xD800 ∨ (0xE000 ≤ r ∧ r < 0x110000)) := by omega
        simp only [if_neg h1, if_neg h2, if_pos h3, if_neg this]
        decide
      · have : r < 0xD800 ∨ (0xE000 ≤ r ∧ r < 0x110000) := by omega
        by_cases h4 : r ≤ 0xFFFF
        · simp only [if_neg h1, if_neg h2, if_neg h3, if_pos h4, if_pos this,
            if_neg (show ¬ r < 0x80 by omega), if_neg (show ¬ r < 0x800 by omega),
            if_pos (show r < 0x10000 by omega)]
          rw [or_add 0xE0 _ (by simp) (by omega) (by omega) (by omega) (by omega),
            or_add 0x80 _ (by simp) (by omega) (by omega) (by omega) (by omega),
            or_add 0x80 _ (by simp) (by omega) (by omega) (by omega) (by omega)]
        · simp only [if_neg h1, if_neg h2, if_neg h3, if_neg h4, if_pos this,
            if_neg (show ¬ r < 0x80 by omega), if_neg (show ¬ r < 0x800 by omega),
            if_neg (show ¬ r < 0x10000 by omega)]
          rw [or_add 0xF0 _ (by simp) (by omega) (by omega) (by omega) (by omega),
            or_add 0x80 _ (by simp) (by omega) (by omega) (by omega) (by omega),
            or_add 0x80 _ (by simp) (by omega) (by omega) (by omega) (by omega),
            or_add 0x80 _ (by simp) (by omega) (by omega) (by omega) (by omega)]

theorem runeBytes_toRune (v : Nat) (h : v < 2 ^ 32) (h1 : v ≠ 0xFFFFFFFF) (h2 : v ≠ 0xFFFFFFFD) :
    runeBytes (toRune v) = runeText v ∧ toRune v ≠ -1 ∧ toRune v ≠ -3 := by
  unfold toRune
  have ht : (BitVec.ofNat 32 v).toInt = if v < 2 ^ 31 then (v : Int) else (v : Int) - 2 ^ 32 := by
    rw [BitVec.toInt_eq_toNat_cond]
    simp only [BitVec.toNat_ofNat]
    rw [Nat.mod_eq_of_lt h]
    split <;> split <;> omega
  rw [ht]
  split
  · exact ⟨runeBytes_eq v, by omega, by omega⟩
  · refine ⟨?_, by omega, by omega⟩
    have hn : ((v : Int) - 2 ^ 32) < 0 := by omega
    unfold runeBytes runeText
    rw [if_pos hn, if_neg (by omega)]
    decide

theorem text_cons (r : Nat) (l : List Nat) : text (r :: l) = runeText r ++ text l := rfl

theorem text_append (l m : List Nat) : text (l ++ m) = text l ++ text m := by
  simp [text, List.flatMap_append]

/-! ### White space and comments -/

theorem runes_dashes : runes "--" = [45, 45] := rfl
theorem runes_open : runes "/*" = [47, 42] := rfl
theorem runes_close : runes "*/" = [42, 47] := rfl
theorem runes_star : runes "*" = [42] := rfl

theorem occurs_snoc {a b : Nat} {c : List Nat} {r : Nat} (h : Occurs [a, b] (c ++ [r])) :
    Occurs [a, b] c ∨ (r = b ∧ ∃ body, c = body ++ [a]) := by
  obtain ⟨x, y, e⟩ := h
  rcases List.eq_nil_or_concat y with rfl | ⟨y', z, rfl⟩
  · right
    have e' : c ++ [r] = (x ++ [a]) ++ [b] := by simpa using e
    have := List.append_inj' e' rfl
    exact ⟨by simpa using this.2, x, this.1⟩
  · left
    have e' : c ++ [r] = (x ++ [a, b] ++ y') ++ [z] := by simpa using e
    exact ⟨x, y', (List.append_inj' e' rfl).1⟩

/-- The first rune of a token: not white space and not the start of a comment. -/
def Starts (r : Nat) (rest : List Nat) : Prop :=
  isSpace r = false ∧ (r = 45 → rest ≠ [] ∧ rest.head? ≠ some 45) ∧
    (r = 47 → rest ≠ [] ∧ rest.head? ≠ some 42)

/-- What `skip` gives for the whole of an input. -/
def SkipResult (l : List Nat) : Option (Nat × List Nat) → Prop
  | none => ∃ b d, l = b ++ d ∧ Skipped b ∧ Dangling d
  | some (r, rest) => ∃ b, l = b ++ r :: rest ∧ Skipped b ∧ Starts r rest

theorem SkipResult.prepend {b l : List Nat} {o : Option (Nat × List Nat)} (h : SkipResult l o)
    (hb : ∀ m, Skipped m → Skipped (b ++ m)) : SkipResult (b ++ l) o := by
  cases o with
  | none =>
    obtain ⟨c, d, rfl, h1, h2⟩ := h
    exact ⟨b ++ c, d, by simp, hb c h1, h2⟩
  | some p =>
    obtain ⟨r, rest⟩ := p
    obtain ⟨c, rfl, h1, h2⟩ := h
    exact ⟨b ++ c, by simp, hb c h1, h2⟩

theorem skip_result (n : Nat) : ∀ l : List Nat, l.length ≤ n →
    SkipResult l (skip .space l) ∧
    (∀ c, 10 ∉ c → SkipResult (runes "--" ++ c ++ l) (skip .line l)) ∧
    (∀ p c, ¬ Occurs (runes "*/") c → (c = [] ∧ p = 0 ∨ c.getLast? = some p) →
      SkipResult (runes "/*" ++ c ++ l) (skip (.block p) l)) := by
  induction n with
  | zero =>
    intro l hl
    have : l = [] := List.eq_nil_of_length_eq_zero (by omega)
    subst this
    refine ⟨⟨[], [], rfl, .nil, .inl rfl⟩, ?_, ?_⟩
    · intro c hc
      exact ⟨[], runes "--" ++ c, by simp, .nil, .inr (.inr (.inr (.inl ⟨c, rfl, hc⟩)))⟩
    · intro p c hc _
      exact ⟨[], runes "/*" ++ c, by simp, .nil, .inr (.inr (.inr (.inr ⟨c, rfl, hc⟩)))⟩
  | succ n ih =>
    intro l hl
    cases l with
    | nil =>
      refine ⟨⟨[], [], rfl, .nil, .inl rfl⟩, ?_, ?_⟩
      · intro c hc
        exact ⟨[], runes "--" ++ c, by simp, .nil, .inr (.inr (.inr (.inl ⟨c, rfl, hc⟩)))⟩
      · intro p c hc _
        exact ⟨[], runes "/*" ++ c, by simp, .nil, .inr (.inr (.inr (.inr ⟨c, rfl, hc⟩)))⟩
    | cons r rest =>
      have hr : rest.length ≤ n := by simpa using hl
      refine ⟨?_, ?_, ?_⟩
      · by_cases hs : isSpace r = true
        · have e : skip .space (r :: rest) = skip .space rest := by
            cases rest <;> simp [skip, hs]
          rw [e]
          exact (ih rest hr).1.prepend (b := [r]) (fun m hm => .space r m hs hm)
        · have hs' : isSpace r = false := by simpa using hs
          by_cases h1 : r = 45
          · subst h1
            cases rest with
            | nil => exact ⟨[], [45], rfl, .nil, .inr (.inl rfl)⟩
            | cons r2 rest2 =>
              by_cases h2 : r2 = 45
              · subst h2
                have e : skip .space (45 :: 45 :: rest2) = skip .line rest2 := by
                  simp [skip, hs']
                rw [e]
                have := (ih rest2 (by simp at hr; omega)).2.1 [] (by simp)
                simpa [runes_dashes] using this
              · have e : skip .space (45 :: r2 :: rest2) = some (45, r2 :: rest2) := by
                  simp [skip, hs', h2]
                rw [e]
                exact ⟨[], rfl, .nil, hs', fun _ => ⟨by simp, by simpa using h2⟩, by simp⟩
          · by_cases h2 : r = 47
            · subst h2
              cases rest with
              | nil => exact ⟨[], [47], rfl, .nil, .inr (.inr (.inl rfl))⟩
              | cons r2 rest2 =>
                by_cases h2 : r2 = 42
                · subst h2
                  have e : skip .space (47 :: 42 :: rest2) = skip (.block 0) rest2 := by
                    simp [skip, hs']
                  rw [e]
                  have := (ih rest2 (by simp at hr; omega)).2.2 0 [] (by
                    rintro ⟨x, y, e⟩; simp [runes_close] at e) (.inl ⟨rfl, rfl⟩)
                  simpa [runes_open] using this
                · have e : skip .space (47 :: r2 :: rest2) = some (47, r2 :: rest2) := by
                    simp [skip, hs', h2]
                  rw [e]
                  exact ⟨[], rfl, .nil, hs', by simp, fun _ => ⟨by simp, by simpa using h2⟩⟩
            · have e : skip .space (r :: rest) = some (r, rest) := by
                cases rest <;> simp [skip, hs', h1, h2]
              rw [e]
              exact ⟨[], rfl, .nil, hs', fun h => (h1 h).elim, fun h => (h2 h).elim⟩
      · intro c hc
        by_cases h1 : r = 10
        · subst h1
          have e : skip .line (10 :: rest) = skip .space rest := by simp [skip]
          rw [e]
          have := (ih rest hr).1.prepend (b := runes "--" ++ c ++ [10]) (fun m hm => by
            have := Skipped.line c m hc hm
            simpa using this)
          simpa using this
        · have e : skip .line (r :: rest) = skip .line rest := by simp [skip, h1]
          rw [e]
          have := (ih rest hr).2.1 (c ++ [r]) (by simp [hc]; omega)
          simpa using this
      · intro p c hc hp
        by_cases h1 : p = 42 ∧ r = 47
        · obtain ⟨rfl, rfl⟩ := h1
          have e : skip (.block 42) (47 :: rest) = skip .space rest := by simp [skip]
          rw [e]
          rcases hp with ⟨_, h⟩ | hp
          · cases h
          · obtain ⟨body, rfl⟩ : ∃ body, c = body ++ [42] := by
              rcases List.eq_nil_or_concat c with rfl | ⟨body, z, rfl⟩
              · simp at hp
              · exact ⟨body, by simp at hp; simp [hp]⟩
            have := (ih rest hr).1.prepend (b := runes "/*" ++ body ++ runes "*/") (fun m hm => by
              have := Skipped.block body m hc hm
              simpa using this)
            simpa [runes_open, runes_close] using this
        · have e : skip (.block p) (r :: rest) = skip (.block r) rest := by
            simp only [skip]
            exact if_neg h1
          rw [e]
          have := (ih rest hr).2.2 r (c ++ [r]) (by
            intro ho
            rcases occurs_snoc ho with h | ⟨h, body, rfl⟩
            · exact hc h
            · rcases hp with ⟨h', _⟩ | hp
              · simp at h'
              · simp at hp
                exact h1 ⟨hp.symm, h⟩) (.inr (by simp))
          simpa using this

theorem skip_spec (l : List Nat) : SkipResult l (skip .space l) := (skip_result _ l (Nat.le_refl _)).1

/-- A rune that is not white space and cannot start a comment starts a token. -/
theorem skip_start {r : Nat} {rest : List Nat} (h : Starts r rest) :
    skip .space (r :: rest) = some (r, rest) := by
  obtain ⟨h0, h1, h2⟩ := h
  by_cases e1 : r = 45
  · subst e1
    cases rest with
    | nil => exact absurd rfl (h1 rfl).1
    | cons r2 rest2 =>
      have : r2 ≠ 45 := by simpa using (h1 rfl).2
      simp [skip, h0, this]
  · by_cases e2 : r = 47
    · subst e2
      cases rest with
      | nil => exact absurd rfl (h2 rfl).1
      | cons r2 rest2 =>
        have : r2 ≠ 42 := by simpa using (h2 rfl).2
        simp [skip, h0, this]
    · cases rest <;> simp [skip, h0, e1, e2]

/-! ### Identifiers, numbers and parameters -/

theorem scanIdentifier_eq (env : ScanEnv) : ∀ (l : List Nat) (buf : Bytes),
    scanIdentifier env false buf l =
      ⟨env.identToken (buf ++ text (l.takeWhile env.identRune)),
        buf ++ text (l.takeWhile env.identRune), l.dropWhile env.identRune⟩ := by
  intro l
  induction l with
  | nil => intro buf; simp [scanIdentifier, text]
  | cons r rest ih =>
    intro buf
    unfold scanIdentifier
    by_cases h : env.identRune r = true
    · rw [if_pos h, ih]
      simp [h, text_cons, runeBytes_eq]
    · rw [if_neg h]
      simp [h, text]

theorem scanParameter_eq (env : ScanEnv) : ∀ (l : List Nat) (buf : Bytes),
    scanParameter env false buf l =
      ⟨parameterToken (buf ++ text (l.takeWhile env.digit)),
        buf ++ text (l.takeWhile env.digit), l.dropWhile env.digit⟩ := by
  intro l
  induction l with
  | nil => intro buf; simp [scanParameter, text]
  | cons r rest ih =>
    intro buf
    unfold scanParameter
    by_cases h : env.digit r = true
    · rw [if_pos h, ih]
      simp [h, text_cons, runeBytes_eq]
    · rw [if_neg h]
      simp [h, text]

theorem scanFraction_eq (env : ScanEnv) (neg : Bool) : ∀ (l : List Nat) (buf : Bytes),
    scanNumber env false neg true buf l =
      ⟨env.numberToken neg true (buf ++ text (l.takeWhile env.digit)),
        buf ++ text (l.takeWhile env.digit), l.dropWhile env.digit⟩ := by
  intro l
  induction l with
  | nil => intro buf; simp [scanNumber, text]
  | cons r rest ih =>
    intro buf
    unfold scanNumber
    by_cases h : env.digit r = true
    · rw [if_neg (by simp), if_pos h, ih]
      simp [h, text_cons, runeBytes_eq]
    · rw [if_neg (by simp), if_neg h]
      simp [h, text]

theorem digit_dot (env : ScanEnv) : env.digit 46 = false := by
  rw [env.digit_ascii 46 (by decide)]; decide

theorem scanNumber_eq (env : ScanEnv) (neg : Bool) : ∀ (l : List Nat) (buf : Bytes),
    scanNumber env false neg false buf l =
      match l.dropWhile env.digit with
      | 46 :: m =>
        scanNumber env false neg true (buf ++ text (l.takeWhile env.digit) ++ runeText 46) m
      | rest =>
        ⟨env.numberToken neg false (buf ++ text (l.takeWhile env.digit)),
          buf ++ text (l.takeWhile env.digit), rest⟩ := by
  intro l
  induction l with
  | nil => intro buf; simp [scanNumber, text]
  | cons r rest ih =>
    intro buf
    conv => lhs; unfold scanNumber
    by_cases h : env.digit r = true
    · have hd : r ≠ 46 := by rintro rfl; rw [digit_dot] at h; cases h
      rw [if_neg (by simp [hd]), if_pos h, ih]
      simp only [List.dropWhile_cons, h, if_true, List.takeWhile_cons, text_cons, runeBytes_eq,
        List.append_assoc]
    · by_cases hd : r = 46
      · subst hd
        rw [if_pos (by simp)]
        simp only [List.dropWhile_cons, h, Bool.false_eq_true, if_false, List.takeWhile_cons, text,
          List.flatMap_nil, List.append_nil, runeBytes_eq]
      · rw [if_neg (by simp [hd]), if_neg h]
        simp only [List.dropWhile_cons, h, List.takeWhile_cons]
        simp only [text, Bool.false_eq_true, if_false, List.flatMap_nil, List.append_nil]
        split
        · rename_i heq; simp at heq; exact absurd heq.1 hd
        · rfl

/-! ### Escapes -/

theorem hexDigit_iff (r d : Nat) : hexDigit r = some d ↔ Hex r d := by
  unfold hexDigit
  constructor
  · intro h
    have e0 : '0'.toNat = 48 := rfl
    have e9 : '9'.toNat = 57 := rfl
    have eA : 'A'.toNat = 65 := rfl
    have eF : 'F'.toNat = 70 := rfl
    have ea : 'a'.toNat = 97 := rfl
    have ef : 'f'.toNat = 102 := rfl
    simp only [e0, e9, eA, eF, ea, ef] at h
    by_cases h1 : 48 ≤ r ∧ r ≤ 57
    · rw [if_pos h1] at h
      have : d = r - 48 := (Option.some.inj h).symm
      have e : r = 48 + d := by omega
      rw [e]; exact .digit d (by omega)
    · rw [if_neg h1] at h
      by_cases h2 : 65 ≤ r ∧ r ≤ 70
      · rw [if_pos h2] at h
        have : d = r - 65 + 10 := (Option.some.inj h).symm
        have e : r = 65 + (d - 10) := by omega
        have e' : d = 10 + (d - 10) := by omega
        rw [e, e']
        have := Hex.upper (d - 10) (by omega)
        simpa using this
      · rw [if_neg h2] at h
        by_cases h3 : 97 ≤ r ∧ r ≤ 102
        · rw [if_pos h3] at h
          have : d = r - 97 + 10 := (Option.some.inj h).symm
          have e : r = 97 + (d - 10) := by omega
          have e' : d = 10 + (d - 10) := by omega
          rw [e, e']
          have := Hex.lower (d - 10) (by omega)
          simpa using this
        · rw [if_neg h3] at h; cases h
  · intro h
    cases h with
    | digit d hd =>
      have : ∀ d < 10, hexDigit (48 + d) = some d := by decide
      exact this d hd
    | upper d hd =>
      have : ∀ d < 6, hexDigit (65 + d) = some (10 + d) := by decide
      exact this d hd
    | lower d hd =>
      have : ∀ d < 6, hexDigit (97 + d) = some (10 + d) := by decide
      exact this d hd

theorem hex_lt {r d : Nat} (h : Hex r d) : d < 16 := by cases h <;> omega

theorem hex_not_quote {r d : Nat} (h : Hex r d) : r ≠ 39 := by cases h <;> omega

theorem hexNumeral_lt {l : List Nat} {v : Nat} (h : HexNumeral l v) : v < 16 ^ l.length := by
  induction h with
  | nil => simp
  | snoc l v r d _ hd ih =>
    have := hex_lt hd
    simp only [List.length_append, List.length_singleton, Nat.pow_succ]
    omega

theorem scanUnicode_sound : ∀ (n : Nat) (pre l : List Nat) (u v : Nat) (rest : List Nat),
    HexNumeral pre u → scanUnicode u n l = (some v, rest) →
    ∃ ds, l = ds ++ rest ∧ ds.length = n ∧ HexNumeral (pre ++ ds) v := by
  intro n
  induction n with
  | zero =>
    intro pre l u v rest hp h
    simp only [scanUnicode, Prod.mk.injEq, Option.some.injEq] at h
    obtain ⟨rfl, rfl⟩ := h
    exact ⟨[], rfl, rfl, by simpa using hp⟩
  | succ n ih =>
    intro pre l u v rest hp h
    cases l with
    | nil => simp [scanUnicode] at h
    | cons r l =>
      simp only [scanUnicode] at h
      cases hd : hexDigit r with
      | none => rw [hd] at h; simp at h
      | some d =>
        rw [hd] at h
        obtain ⟨ds, rfl, h1, h2⟩ := ih (pre ++ [r]) l _ v rest
          (.snoc pre u r d hp ((hexDigit_iff r d).1 hd)) h
        exact ⟨r :: ds, rfl, by simp [h1], by simpa using h2⟩

theorem scanUnicode_complete {ds : List Nat} {v : Nat} (h : HexNumeral ds v) :
    ∀ (u k : Nat) (rest : List Nat),
      scanUnicode u (ds.length + k) (ds ++ rest) =
        scanUnicode (u * 16 ^ ds.length + v) k rest := by
  induction h with
  | nil => intro u k rest; simp
  | snoc l v r d _ hd ih =>
    intro u k rest
    have := ih u (k + 1) (r :: rest)
    rw [show (l ++ [r]).length + k = l.length + (k + 1) by simp; omega]
    rw [List.append_assoc, List.singleton_append, this]
    simp only [scanUnicode, (hexDigit_iff r d).2 hd]
    congr 1
    simp only [List.length_append, List.length_singleton, Nat.pow_succ]
    rw [Nat.add_mul, Nat.mul_assoc, Nat.add_assoc]

theorem octalDigit_iff (r d : Nat) : octalDigit r = some d ↔ d < 8 ∧ r = 48 + d := by
  unfold octalDigit
  have e0 : '0'.toNat = 48 := rfl
  have e7 : '7'.toNat = 55 := rfl
  simp only [e0, e7]
  constructor
  · intro h
    by_cases h1 : 48 ≤ r ∧ r ≤ 55
    · rw [if_pos h1] at h
      have := Option.some.inj h
      omega
    · rw [if_neg h1] at h; cases h
  · rintro ⟨h, rfl⟩
    rw [if_pos (by omega)]
    simp

theorem scanOctal_eq (a : Nat) (l : List Nat) : scanOctal a 2 l =
    match l with
    | [] => (none, [])
    | r :: l =>
      match octalDigit r with
      | none => (none, l)
      | some b =>
        match l with
        | [] => (none, [])
        | r2 :: l =>
          match octalDigit r2 with
          | none => (none, l)
          | some c => (some ((a * 64 + b * 8 + c) % 256), l) := by
  cases l with
  | nil => rfl
  | cons r l =>
    simp only [scanOctal]
    cases octalDigit r with
    | none => rfl
    | some b =>
      cases l with
      | nil => rfl
      | cons r2 l =>
        simp only [scanOctal]
        cases octalDigit r2 with
        | none => rfl
        | some c =>
          simp only
          congr 2
          omega

theorem lookup_simple (r : Nat) :
    (∀ c, simpleEscapes.lookup r = some c ↔ (r, c) ∈ escapeLetters) := by
  intro c
  have e : simpleEscapes = escapeLetters := rfl
  rw [e]
  unfold escapeLetters
  simp only [List.lookup, List.mem_cons, Prod.mk.injEq, List.not_mem_nil, or_false]
  repeat' (split <;> rename_i h <;> simp only [beq_iff_eq, beq_eq_false_iff_ne, ne_eq] at h)
  all_goals simp_all [eq_comm]

theorem unicode_suffix : ∀ (n u : Nat) (l : List Nat), (scanUnicode u n l).2 <:+ l
  | 0, _, _ => List.suffix_refl _
  | _ + 1, _, [] => List.suffix_refl _
  | n + 1, u, r :: rest => by
    unfold scanUnicode
    split
    · exact List.suffix_cons _ _
    · exact (unicode_suffix n _ rest).trans (List.suffix_cons _ _)

theorem octal_suffix : ∀ (n u : Nat) (l : List Nat), (scanOctal u n l).2 <:+ l
  | 0, _, _ => List.suffix_refl _
  | _ + 1, _, [] => List.suffix_refl _
  | n + 1, u, r :: rest => by
    unfold scanOctal
    split
    · exact List.suffix_cons _ _
    · exact (octal_suffix n _ rest).trans (List.suffix_cons _ _)

theorem escape_suffix (l : List Nat) : (scanEscape l).2 <:+ l := by
  cases l with
  | nil => exact List.suffix_refl _
  | cons r rest =>
    have hu := fun n => (unicode_suffix n 0 rest).trans (List.suffix_cons r _)
    have ho := fun u => (octal_suffix 2 u rest).trans (List.suffix_cons r _)
    simp only [scanEscape]
    split
    · exact List.suffix_cons _ _
    · split
      · exact hu 2
      · split
        · exact hu 4
        · split
          · exact hu 8
          · split
            · exact ho _
            · exact List.suffix_cons _ _

theorem escape_sound {l rest : List Nat} {c : Int} (h : scanEscape l = (some c, rest))
    (h1 : c ≠ -1) (h3 : c ≠ -3) :
    ∃ e v, l = e ++ rest ∧ Escape e v ∧ runeBytes c = runeText v := by
  cases l with
  | nil => simp [scanEscape] at h
  | cons r l =>
    simp only [scanEscape] at h
    have ex : 'x'.toNat = 120 := rfl
    have eu : 'u'.toNat = 117 := rfl
    have eU : 'U'.toNat = 85 := rfl
    have e0 : '0'.toNat = 48 := rfl
    have e7 : '7'.toNat = 55 := rfl
    simp only [ex, eu, eU, e0, e7] at h
    have hex : ∀ (p n : Nat) (hp : r = p) (hn : n ≤ 8)
        (hE : ∀ ds v, ds.length = n → HexNumeral ds v → v ≠ 0xFFFFFFFF → v ≠ 0xFFFFFFFD →
          Escape (p :: ds) v),
        (Option.map toRune (scanUnicode 0 n l).1, (scanUnicode 0 n l).2) = (some c, rest) →
        ∃ e v, r :: l = e ++ rest ∧ Escape e v ∧ runeBytes c = runeText v := by
      intro p n hp hn hE h
      subst hp
      cases hu : scanUnicode 0 n l with
      | mk o rest' =>
        rw [hu] at h
        cases o with
        | none => simp at h
        | some v =>
          simp only [Option.map_some, Prod.mk.injEq, Option.some.injEq] at h
          obtain ⟨rfl, rfl⟩ := h
          obtain ⟨ds, rfl, hl, hv⟩ := scanUnicode_sound n [] l 0 v rest' .nil hu
          simp only [List.nil_append] at hv
          have hlt : v < 2 ^ 32 := by
            have := hexNumeral_lt hv
            rw [hl] at this
            exact Nat.lt_of_lt_of_le this
              (Nat.le_trans (Nat.pow_le_pow_right (by decide) hn) (by decide))
          have hne1 : v ≠ 0xFFFFFFFF := by
            rintro rfl; exact h1 (by decide)
          have hne2 : v ≠ 0xFFFFFFFD := by
            rintro rfl; exact h3 (by decide)
          exact ⟨r :: ds, v, rfl, hE ds v hl hv hne1 hne2,
            (runeBytes_toRune v hlt hne1 hne2).1⟩
    cases hs : simpleEscapes.lookup r with
    | some k =>
      rw [hs] at h
      simp only [Prod.mk.injEq, Option.some.injEq] at h
      obtain ⟨rfl, rfl⟩ := h
      exact ⟨[r], k, rfl, .letter r k ((lookup_simple r k).1 hs), runeBytes_eq k⟩
    | none =>
      rw [hs] at h
      simp only at h
      by_cases hx : r = 120
      · rw [if_pos hx] at h
        exact hex 120 2 hx (by omega) (fun ds v hl hv _ _ => .x ds v hl hv) h
      · rw [if_neg hx] at h
        by_cases hu : r = 117
        · rw [if_pos hu] at h
          exact hex 117 4 hu (by omega) (fun ds v hl hv _ _ => .u ds v hl hv) h
        · rw [if_neg hu] at h
          by_cases hU : r = 85
          · rw [if_pos hU] at h
            exact hex 85 8 hU (by omega) (fun ds v hl hv a b => .U ds v hl hv a b) h
          · rw [if_neg hU] at h
            by_cases ho : 48 ≤ r ∧ r ≤ 55
            · rw [if_pos ho, scanOctal_eq] at h
              cases l with
              | nil => simp at h
              | cons r2 l =>
                simp only at h
                cases h2 : octalDigit r2 with
                | none => rw [h2] at h; simp at h
                | some b =>
                  rw [h2] at h
                  cases l with
                  | nil => simp at h
                  | cons r3 l =>
                    simp only at h
                    cases h4 : octalDigit r3 with
                    | none => rw [h4] at h; simp at h
                    | some d =>
                      rw [h4] at h
                      simp only [Option.map_some, Prod.mk.injEq, Option.some.injEq] at h
                      obtain ⟨rfl, rfl⟩ := h
                      obtain ⟨hb, rfl⟩ := (octalDigit_iff _ _).1 h2
                      obtain ⟨hd, rfl⟩ := (octalDigit_iff _ _).1 h4
                      have e : r = 48 + (r - 48) := by omega
                      refine ⟨[r, 48 + b, 48 + d], _, rfl, ?_,
                        (runeBytes_toRune _ ?_ ?_ ?_).1⟩
                      · have := Escape.octal (r - 48) b d (by omega) hb hd
                        rwa [← e] at this
                      · omega
                      · omega
                      · omega
            · rw [if_neg ho] at h
              simp only [Prod.mk.injEq, Option.some.injEq] at h
              obtain ⟨rfl, rfl⟩ := h
              refine ⟨[r], r, rfl, .other r ?_ ?_ ho, runeBytes_eq r⟩
              · intro k hk
                rw [← lookup_simple] at hk
                rw [hs] at hk; cases hk
              · simp [hx, hu, hU]

theorem escape_complete {e : List Nat} {v : Nat} (h : Escape e v) (rest : List Nat) :
    ∃ c, scanEscape (e ++ rest) = (some c, rest) ∧ runeBytes c = runeText v ∧ c ≠ -1 ∧ c ≠ -3 := by
  have hex : ∀ (n : Nat) (ds : List Nat) (v : Nat), ds.length = n → n ≤ 8 → HexNumeral ds v →
      v ≠ 0xFFFFFFFF → v ≠ 0xFFFFFFFD →
      scanUnicode 0 n (ds ++ rest) = (some v, rest) ∧
        runeBytes (toRune v) = runeText v ∧ toRune v ≠ -1 ∧ toRune v ≠ -3 := by
    intro n ds v hl hn hv h1 h2
    have hlt : v < 2 ^ 32 := by
      have := hexNumeral_lt hv
      rw [hl] at this
      exact Nat.lt_of_lt_of_le this
        (Nat.le_trans (Nat.pow_le_pow_right (by decide) hn) (by decide))
    refine ⟨?_, runeBytes_toRune v hlt h1 h2⟩
    have := scanUnicode_complete hv 0 0 rest
    rw [hl] at this
    simpa [scanUnicode] using this
  have small : ∀ (n : Nat) (ds : List Nat) (v : Nat), ds.length = n → n ≤ 4 → HexNumeral ds v →
      v ≠ 0xFFFFFFFF ∧ v ≠ 0xFFFFFFFD := by
    intro n ds v hl hn hv
    have := hexNumeral_lt hv
    rw [hl] at this
    have : v < 16 ^ 4 := Nat.lt_of_lt_of_le this (Nat.pow_le_pow_right (by decide) hn)
    omega
  have hl : ∀ r, r = 120 ∨ r = 117 ∨ r = 85 ∨ (48 ≤ r ∧ r ≤ 55) → simpleEscapes.lookup r = none := by
    intro r hr
    cases hs : simpleEscapes.lookup r with
    | none => rfl
    | some c =>
      rw [lookup_simple] at hs
      simp only [escapeLetters, List.mem_cons, Prod.mk.injEq, List.not_mem_nil, or_false] at hs
      omega
  cases h with
  | letter r _ hm =>
    rw [← lookup_simple] at hm
    exact ⟨v, by simp [scanEscape, hm], runeBytes_eq v, by omega, by omega⟩
  | x l v hlen hv =>
    obtain ⟨h1, h2⟩ := small 2 l v hlen (by omega) hv
    obtain ⟨e, hr⟩ := hex 2 l v hlen (by omega) hv h1 h2
    exact ⟨toRune v, by simp [scanEscape, hl 120 (by simp), e], hr⟩
  | u l v hlen hv =>
    obtain ⟨h1, h2⟩ := small 4 l v hlen (by omega) hv
    obtain ⟨e, hr⟩ := hex 4 l v hlen (by omega) hv h1 h2
    exact ⟨toRune v, by simp [scanEscape, hl 117 (by simp), e], hr⟩
  | U l v hlen hv h1 h2 =>
    obtain ⟨e, hr⟩ := hex 8 l v hlen (by omega) hv h1 h2
    exact ⟨toRune v, by simp [scanEscape, hl 85 (by simp), e], hr⟩
  | octal a b c ha hb hc =>
    refine ⟨toRune ((a * 64 + b * 8 + c) % 256), ?_, runeBytes_toRune _ ?_ ?_ ?_⟩
    · have hb' := (octalDigit_iff (48 + b) b).2 ⟨hb, rfl⟩
      have hc' := (octalDigit_iff (48 + c) c).2 ⟨hc, rfl⟩
      have h1 : ¬ (48 + a = 120) := by omega
      have h2 : ¬ (48 + a = 117) := by omega
      have h3 : ¬ (48 + a = 85) := by omega
      have h4 : 48 + a ≤ 55 := by omega
      simp [scanEscape, hl (48 + a) (by omega), scanOctal_eq, hb', hc', h1, h2, h3, h4]
    · omega
    · omega
    · omega
  | other _ h1 h2 h3 =>
    simp only [List.mem_cons, List.not_mem_nil, or_false, not_or] at h2
    have : simpleEscapes.lookup v = none := by
      cases hs : simpleEscapes.lookup v with
      | none => rfl
      | some c => rw [lookup_simple] at hs; exact absurd hs (h1 c)
    refine ⟨v, ?_, runeBytes_eq v, by omega, by omega⟩
    have h3' : ¬ (48 ≤ v ∧ v ≤ 55) := h3
    simp [scanEscape, this, h2]
    omega

/-! ### Quoted constants -/

theorem skipGap_eq : ∀ (l : List Nat) (nl : Bool),
    skipGap nl l = (nl || (l.takeWhile isSpace).any (fun r => r == 10 || r == 13),
      l.dropWhile isSpace) := by
  intro l
  induction l with
  | nil => intro nl; simp [skipGap]
  | cons r rest ih =>
    intro nl
    unfold skipGap
    by_cases h : isSpace r = true
    · rw [if_pos h, ih]; simp [h, Bool.or_assoc]
    · rw [if_neg h]; simp [h]

theorem isSpace_quote : isSpace 39 = false := by decide

theorem newline_mem {ws : List Nat} :
    (ws.any (fun r => r == 10 || r == 13)) = true ↔ (10 ∈ ws ∨ 13 ∈ ws) := by
  simp only [List.any_eq_true, Bool.or_eq_true, beq_iff_eq]
  constructor
  · rintro ⟨r, h, rfl | rfl⟩
    · exact .inl h
    · exact .inr h
  · rintro (h | h)
    · exact ⟨10, h, .inl rfl⟩
    · exact ⟨13, h, .inr rfl⟩

theorem runeBytes_quote : runeBytes (39 : Nat) = [39#8] := by decide

theorem mem_takeWhile {p : Nat → Bool} {r : Nat} : ∀ {l : List Nat}, r ∈ l.takeWhile p → p r = true
  | [], h => by simp at h
  | a :: l, h => by
    by_cases ha : p a = true
    · simp only [List.takeWhile_cons, ha, if_true, List.mem_cons] at h
      rcases h with rfl | h
      · exact ha
      · exact mem_takeWhile h
    · simp [ha] at h

theorem dropWhile_space_spec (l : List Nat) :
    ∃ ws, l = ws ++ l.dropWhile isSpace ∧ (∀ r ∈ ws, isSpace r = true) ∧
      ws = l.takeWhile isSpace := by
  refine ⟨l.takeWhile isSpace, (List.takeWhile_append_dropWhile).symm, ?_, rfl⟩
  intro r hr
  exact mem_takeWhile hr

theorem quoted_cons (fails esc : Bool) (buf : Bytes) (r : Nat) (rest : List Nat) :
    scanQuotedConstant fails esc buf (r :: rest) =
      if r = 39 then
        match rest with
        | [] => (none, buf, reread fails [])
        | r2 :: rest2 =>
          if isSpace r2 then
            match rest2.dropWhile isSpace with
            | [] => if fails then (some false, buf, []) else (none, buf, [])
            | r3 :: rest3 =>
              if r3 = 39 ∧ (r2 == 10 || r2 == 13 ||
                  (rest2.takeWhile isSpace).any (fun r => r == 10 || r == 13)) = true then
                scanQuotedConstant fails esc buf rest3
              else (none, buf, r3 :: rest3)
          else if r2 ≠ 39 then (none, buf, r2 :: rest2)
          else scanQuotedConstant fails esc (buf ++ runeBytes r2) rest2
      else if r = 92 ∧ esc = true then
        match scanEscape rest with
        | (none, rest2) => (some false, buf, rest2)
        | (some r2, rest2) =>
          if r2 = -1 then (some false, buf, rest2)
          else if r2 = -3 then (some true, buf, rest2)
          else scanQuotedConstant fails esc (buf ++ runeBytes r2) rest2
      else scanQuotedConstant fails esc (buf ++ runeBytes r) rest := by
  have eq : '\''.toNat = 39 := rfl
  have eb : '\\'.toNat = 92 := rfl
  rw [scanQuotedConstant.eq_def]
  simp only [eq, eb]
  by_cases hq : r = 39
  · rw [if_pos hq, if_pos hq]
    cases rest with
    | nil => rfl
    | cons r2 rest2 =>
      simp only
      by_cases hs : isSpace r2 = true
      · rw [if_pos hs, if_pos hs]
        split <;> rename_i h <;> rw [skipGap_eq] at h <;>
          obtain ⟨h1, h2⟩ := Prod.mk.injEq .. ▸ h
        · rw [h2]
        · rw [h2, ← h1]
      · rw [if_neg hs, if_neg hs]
  · rw [if_neg hq, if_neg hq]
    by_cases hb : r = 92 ∧ esc = true
    · rw [if_pos hb, if_pos hb]
      split <;> rename_i h <;> rw [h]
    · rw [if_neg hb, if_neg hb]

theorem quoted_sound (esc : Bool) : ∀ (n : Nat) (l : List Nat), l.length ≤ n → ∀ buf : Bytes,
    match scanQuotedConstant false esc buf l with
    | (none, buf', rest) => ∃ body gap v, l = body ++ gap ++ rest ∧ Constant esc body v ∧
        buf' = buf ++ v ∧ ∀ r ∈ gap, isSpace r = true
    | (some _, _, rest) => ∃ used, l = used ++ rest := by
  intro n
  induction n with
  | zero =>
    intro l hl buf
    have : l = [] := List.length_eq_zero_iff.1 (by omega)
    subst this
    rw [scanQuotedConstant]
    exact ⟨[], rfl⟩
  | succ n ih =>
    intro l hl buf
    have step : ∀ (p m : List Nat) (v : Bytes), l = p ++ m → p ≠ [] → Piece esc p v →
        match scanQuotedConstant false esc (buf ++ v) m with
        | (none, buf', rest) => ∃ body gap v, l = body ++ gap ++ rest ∧ Constant esc body v ∧
            buf' = buf ++ v ∧ ∀ r ∈ gap, isSpace r = true
        | (some _, _, rest) => ∃ used, l = used ++ rest := by
      intro p m v hp hne hv
      have hlen : m.length ≤ n := by
        have := List.length_pos_iff.2 hne
        rw [hp, List.length_append] at hl
        omega
      have := ih m hlen (buf ++ v)
      revert this
      generalize scanQuotedConstant false esc (buf ++ v) m = o
      obtain ⟨o, b, rest⟩ := o
      cases o with
      | none =>
        rintro ⟨body, gap, w, e1, e2, e3, e4⟩
        exact ⟨p ++ body, gap, v ++ w, by simp [hp, e1], .piece p body v w hv e2,
          by simp [e3], e4⟩
      | some i =>
        rintro ⟨used, e⟩
        exact ⟨p ++ used, by simp [hp, e]⟩
    cases l with
    | nil => rw [scanQuotedConstant]; exact ⟨[], rfl⟩
    | cons r rest =>
      rw [quoted_cons]
      by_cases hq : r = 39
      · rw [if_pos hq]
        subst hq
        cases rest with
        | nil => exact ⟨[39], [], [], rfl, .done, by simp, by simp⟩
        | cons r2 rest2 =>
          simp only
          by_cases hs : isSpace r2 = true
          · rw [if_pos hs]
            obtain ⟨ws, e, hws, etw⟩ := dropWhile_space_spec rest2
            rw [← etw]
            have hws2 : ∀ r ∈ r2 :: ws, isSpace r = true := by
              intro r hr
              rcases List.mem_cons.1 hr with rfl | hr
              · exact hs
              · exact hws r hr
            generalize hd : rest2.dropWhile isSpace = d at e
            cases d with
            | nil =>
              refine ⟨[39], r2 :: ws, [], ?_, .done, by simp, hws2⟩
              simp [e]
            | cons r3 rest3 =>
              simp only
              by_cases hc : r3 = 39 ∧ ((r2 == 10 || r2 == 13) ||
                  ws.any (fun r => r == 10 || r == 13)) = true
              · rw [if_pos hc]
                have hnl : 10 ∈ r2 :: ws ∨ 13 ∈ r2 :: ws := by
                  rw [← newline_mem]; simpa using hc.2
                have := step (39 :: (r2 :: ws) ++ [39]) rest3 []
                  (by simp [e, hc.1]) (by simp) (.join (r2 :: ws) hws2 hnl)
                rwa [List.append_nil] at this
              · rw [if_neg hc]
                exact ⟨[39], r2 :: ws, [], by simp [e], .done, by simp, hws2⟩
          · rw [if_neg hs]
            by_cases hq2 : r2 = 39
            · rw [if_neg (by simpa using hq2)]
              subst hq2
              rw [runeBytes_quote]
              exact step [39, 39] rest2 [39#8] rfl (by simp) .quote
            · rw [if_pos hq2]
              exact ⟨[39], [], [], rfl, .done, by simp, by simp⟩
      · rw [if_neg hq]
        by_cases hb : r = 92 ∧ esc = true
        · rw [if_pos hb]
          obtain ⟨rfl, he⟩ := hb
          have hsuf := escape_suffix rest
          cases hE : scanEscape rest with
          | mk o rest2 =>
            rw [hE] at hsuf
            obtain ⟨used, hused⟩ := hsuf
            cases o with
            | none => exact ⟨92 :: used, by simp [← hused]⟩
            | some c =>
              simp only
              by_cases h1 : c = -1
              · rw [if_pos h1]; exact ⟨92 :: used, by simp [← hused]⟩
              · rw [if_neg h1]
                by_cases h3 : c = -3
                · rw [if_pos h3]; exact ⟨92 :: used, by simp [← hused]⟩
                · rw [if_neg h3]
                  obtain ⟨e, v, e1, e2, e3⟩ := escape_sound hE h1 h3
                  rw [e3]
                  exact step (92 :: e) rest2 (runeText v) (by simp [e1]) (by simp)
                    (.escape e v he e2)
        · rw [if_neg hb, runeBytes_eq]
          exact step [r] rest (runeText r) rfl (by simp)
            (.plain r hq (fun he h => hb ⟨h, he⟩))

theorem quoted_complete {esc : Bool} {body : List Nat} {v : Bytes} (h : Constant esc body v) :
    ∀ (buf : Bytes) (rest : List Nat), ¬ Continues rest →
      scanQuotedConstant false esc buf (body ++ rest) = (none, buf ++ v, rest.dropWhile isSpace) := by
  induction h with
  | done =>
    intro buf rest hc
    rw [List.singleton_append, quoted_cons]
    simp only [if_true]
    cases rest with
    | nil => simp [reread]
    | cons r2 rest2 =>
      simp only
      by_cases hs : isSpace r2 = true
      · rw [if_pos hs]
        obtain ⟨ws, e, hws, etw⟩ := dropWhile_space_spec rest2
        rw [← etw]
        have hdr : (r2 :: rest2).dropWhile isSpace = rest2.dropWhile isSpace := by simp [hs]
        rw [hdr]
        generalize hd : rest2.dropWhile isSpace = d at e
        cases d with
        | nil => simp
        | cons r3 rest3 =>
          simp only
          rw [if_neg]
          · simp
          · rintro ⟨rfl, hnl⟩
            apply hc
            right
            refine ⟨r2 :: ws, rest3, by simp [e], ?_, ?_⟩
            · intro r hr
              rcases List.mem_cons.1 hr with rfl | hr
              · exact hs
              · exact hws r hr
            · rw [← newline_mem]; simpa using hnl
      · rw [if_neg hs, if_pos]
        · simp [hs]
        · rintro rfl
          exact hc (.inl ⟨rest2, rfl⟩)
  | piece l m v w hp _ ih =>
    intro buf rest hc
    cases hp with
    | plain r h1 h2 =>
      rw [List.append_assoc, List.singleton_append, quoted_cons]
      rw [if_neg h1, if_neg (fun h => h2 h.2 h.1), runeBytes_eq, ih _ _ hc]
      simp
    | quote =>
      rw [List.append_assoc, List.cons_append, List.singleton_append, quoted_cons]
      simp only [if_true, isSpace_quote, Bool.false_eq_true, if_false, ne_eq,
        not_true_eq_false]
      rw [runeBytes_quote, ih _ _ hc]
      simp
    | join ws h1 h2 =>
      cases ws with
      | nil => simp at h2
      | cons r2 ws =>
        have hs := h1 r2 (by simp)
        have hws : ∀ r ∈ ws, isSpace r = true := fun r hr => h1 r (by simp [hr])
        rw [show 39 :: (r2 :: ws) ++ [39] ++ m ++ rest = 39 :: r2 :: (ws ++ 39 :: (m ++ rest)) by
          simp]
        rw [quoted_cons]
        simp only [if_true, hs]
        have ed : (ws ++ 39 :: (m ++ rest)).dropWhile isSpace = 39 :: (m ++ rest) := by
          rw [List.dropWhile_append_of_pos hws]; simp [isSpace_quote]
        have et : (ws ++ 39 :: (m ++ rest)).takeWhile isSpace = ws := by
          rw [List.takeWhile_append_of_pos hws]; simp [isSpace_quote]
        rw [ed, et]
        simp only
        rw [if_pos, ih _ _ hc]
        · simp
        · refine ⟨trivial, ?_⟩
          have := newline_mem.2 h2
          simpa using this
    | escape e c he hE =>
      obtain ⟨r, e1, e2, e3, e4⟩ := escape_complete hE (m ++ rest)
      rw [List.append_assoc, List.cons_append, quoted_cons]
      rw [if_neg (by decide), if_pos ⟨rfl, he⟩, e1]
      simp only
      rw [if_neg e3, if_neg e4, e2, ih _ _ hc]
      simp

/-! ### Quoted identifiers and hex bytes -/

theorem quotedIdentifier_spec (env : ScanEnv) (d : Nat) : ∀ (l : List Nat) (buf : Bytes),
    (∃ body rest, l = body ++ d :: rest ∧ d ∉ body ∧
      scanQuotedIdentifier env d buf l =
        ⟨.identifier (env.id (buf ++ text body) true), buf ++ text body, rest⟩) ∨
    ((scanQuotedIdentifier env d buf l).token = .error false ∧
      (scanQuotedIdentifier env d buf l).rest = []) := by
  intro l
  induction l with
  | nil => intro buf; right; exact ⟨rfl, rfl⟩
  | cons r rest ih =>
    intro buf
    unfold scanQuotedIdentifier
    by_cases h : r = d
    · rw [if_pos h]
      exact .inl ⟨[], rest, by simp [h], by simp, by simp [text]⟩
    · rw [if_neg h]
      rcases ih (buf ++ runeBytes r) with ⟨body, rest2, e1, e2, e3⟩ | he
      · left
        refine ⟨r :: body, rest2, by simp [e1], by simp [e2, Ne.symm h], ?_⟩
        rw [e3]; simp [text_cons, runeBytes_eq]
      · exact .inr he

theorem hexBytes_complete {body : List Nat} {b : Bytes} (h : HexPairs body b) :
    ∀ (buf : Bytes) (rest : List Nat),
      scanHexBytes buf (body ++ 39 :: rest) = ⟨.bytes (buf ++ b), buf ++ b, rest⟩ := by
  have eq : '\''.toNat = 39 := rfl
  induction h with
  | nil => intro buf rest; simp [scanHexBytes]
  | cons r1 r2 d1 d2 l b h1 h2 _ ih =>
    intro buf rest
    simp only [List.cons_append, scanHexBytes, eq, if_neg (hex_not_quote h1),
      (hexDigit_iff r1 d1).2 h1, (hexDigit_iff r2 d2).2 h2]
    rw [ih]
    simp

theorem hexBytes_spec : ∀ (n : Nat) (l : List Nat), l.length ≤ n → ∀ buf : Bytes,
    (∃ body b rest, l = body ++ 39 :: rest ∧ HexPairs body b ∧
      scanHexBytes buf l = ⟨.bytes (buf ++ b), buf ++ b, rest⟩) ∨
    ((scanHexBytes buf l).token = .error false ∧ (scanHexBytes buf l).rest <:+ l) := by
  have eq : '\''.toNat = 39 := rfl
  intro n
  induction n with
  | zero =>
    intro l hl buf
    have : l = [] := List.length_eq_zero_iff.1 (by omega)
    subst this
    exact .inr ⟨rfl, List.suffix_refl _⟩
  | succ n ih =>
    intro l hl buf
    cases l with
    | nil => exact .inr ⟨rfl, List.suffix_refl _⟩
    | cons r rest =>
      by_cases hq : r = 39
      · left
        exact ⟨[], [], rest, by simp [hq], .nil, by simp [scanHexBytes, hq]⟩
      · cases hd : hexDigit r with
        | none => right; cases rest <;> simp [scanHexBytes, hq, hd]
        | some d =>
          cases rest with
          | nil => right; simp [scanHexBytes, hq, hd]
          | cons r2 rest2 =>
            cases hd2 : hexDigit r2 with
            | none =>
              right
              simp only [scanHexBytes, eq, if_neg hq, hd, hd2]
              exact ⟨trivial, (List.suffix_cons _ _).trans (List.suffix_cons _ _)⟩
            | some d2 =>
              simp only [scanHexBytes, eq, if_neg hq, hd, hd2]
              rcases ih rest2 (by simp at hl; omega) (buf ++ [BitVec.ofNat 8 (d * 16 + d2)]) with
                ⟨body, b, rest3, e1, e2, e3⟩ | ⟨h1, h2⟩
              · left
                exact ⟨r :: r2 :: body, _, rest3, by simp [e1],
                  .cons r r2 d d2 body b ((hexDigit_iff _ _).1 hd) ((hexDigit_iff _ _).1 hd2) e2,
                  by rw [e3]; simp⟩
              · right
                exact ⟨h1, h2.trans ((List.suffix_cons _ _).trans (List.suffix_cons _ _))⟩

/-! ### Numerals -/

theorem runeText_ascii {r : Nat} (h : r < 128) : runeText r = [BitVec.ofNat 8 r] := by
  unfold runeText
  rw [if_pos (by omega)]
  unfold utf8Encode
  rw [if_pos h]

theorem runeText_high {r : Nat} (h : 128 ≤ r) :
    ∃ b t, runeText r = b :: t ∧ 128 ≤ b.toNat := by
  have key : ∀ c, 128 ≤ c → c < 0x110000 → ∃ b t, utf8Encode c = b :: t ∧ 128 ≤ b.toNat := by
    intro c h1 h2
    unfold utf8Encode
    rw [if_neg (by omega)]
    split
    · exact ⟨_, _, rfl, by rw [BitVec.toNat_ofNat]; omega⟩
    · split
      · exact ⟨_, _, rfl, by rw [BitVec.toNat_ofNat]; omega⟩
      · exact ⟨_, _, rfl, by rw [BitVec.toNat_ofNat]; omega⟩
  unfold runeText
  split
  · exact key r h (by omega)
  · exact key _ (by omega) (by omega)

theorem runeText_length_digit {r : Nat} (h : 48 ≤ r ∧ r ≤ 57) :
    runeText r = [BitVec.ofNat 8 r] := runeText_ascii (by omega)

theorem text_length : ∀ {l : List Nat}, (∀ r ∈ l, 48 ≤ r ∧ r ≤ 57) → (text l).length = l.length
  | [], _ => rfl
  | r :: l, h => by
    rw [text_cons, runeText_length_digit (h r (by simp)), List.length_append,
      text_length (fun c hc => h c (by simp [hc]))]
    simp; omega

theorem text_digits : ∀ {l : List Nat}, (∀ r ∈ l, 48 ≤ r ∧ r ≤ 57) →
    (∀ b ∈ text l, 48 ≤ b.toNat ∧ b.toNat ≤ 57) ∧ decimalValue (text l) = digitsValue 10 (· - 48) l
  | [], _ => by simp [text, decimalValue, digitsValue]
  | r :: l, h => by
    have hr := h r (by simp)
    have hl : ∀ c ∈ l, 48 ≤ c ∧ c ≤ 57 := fun c hc => h c (by simp [hc])
    have ih := text_digits hl
    have e : (BitVec.ofNat 8 r).toNat = r := by rw [BitVec.toNat_ofNat]; omega
    rw [text_cons, runeText_length_digit hr, List.singleton_append]
    constructor
    · intro b hb
      rcases List.mem_cons.1 hb with rfl | hb
      · rw [e]; exact hr
      · exact ih.1 b hb
    · simp only [decimalValue, digitsValue, e, ih.2, text_length hl]

theorem text_ascii_digits : ∀ {l : List Nat}, (∀ b ∈ text l, 48 ≤ b.toNat ∧ b.toNat ≤ 57) →
    ∀ r ∈ l, 48 ≤ r ∧ r ≤ 57
  | [], _ => by simp
  | r :: l, h => by
    rw [text_cons] at h
    intro c hc
    rcases List.mem_cons.1 hc with rfl | hc
    · by_cases hr : c < 128
      · have := h (BitVec.ofNat 8 c) (by rw [runeText_ascii hr]; simp)
        rw [BitVec.toNat_ofNat] at this
        omega
      · obtain ⟨b, t, e, hb⟩ := runeText_high (r := c) (by omega)
        have := h b (by rw [e]; simp)
        omega
    · exact text_ascii_digits (fun b hb => h b (by simp [hb])) c hc

theorem isDecimal_text (l : List Nat) (n : Nat) : IsDecimal (text l) n ↔ Numeral l n := by
  constructor
  · rintro ⟨h1, h2, h3⟩
    have hd := text_ascii_digits h2
    refine ⟨?_, hd, ?_⟩
    · rintro rfl; exact h1 rfl
    · rw [← h3, (text_digits hd).2]
  · rintro ⟨h1, h2, h3⟩
    refine ⟨?_, (text_digits h2).1, ?_⟩
    · intro e
      apply h1
      have := text_length h2
      rw [e] at this
      exact List.length_eq_zero_iff.1 this.symm
    · rw [(text_digits h2).2, h3]

theorem text_head {r : Nat} {l : List Nat} {b : Byte} {t : Bytes} (h : text (r :: l) = b :: t)
    (hb : b.toNat < 128) : r = b.toNat := by
  rw [text_cons] at h
  by_cases hr : r < 128
  · rw [runeText_ascii hr, List.singleton_append] at h
    have := (List.cons.inj h).1
    rw [← this, BitVec.toNat_ofNat]
    omega
  · obtain ⟨b', t', e, hb'⟩ := runeText_high (r := r) (by omega)
    rw [e, List.cons_append] at h
    have := (List.cons.inj h).1
    subst this
    omega

theorem parseInt64_text {env : ScanEnv} {r : Nat} {l : List Nat} (hr : env.digit r = true)
    {i : BitVec 64} :
    parseInt64 (text (r :: l)) = some i ↔ ∃ n, Numeral (r :: l) n ∧ n < 2 ^ 63 ∧ i.toInt = n := by
  have hhi := BitVec.toInt_lt (x := i)
  rw [parseInt64_iff]
  unfold IsNumeral
  have hs : ∀ b : Byte, b = 0x2b#8 ∨ b = 0x2d#8 → ∀ t, text (r :: l) ≠ b :: t := by
    intro b hb t e
    have hlt : b.toNat < 128 := by rcases hb with rfl | rfl <;> decide
    have := text_head e hlt
    rw [this, env.digit_ascii _ hlt] at hr
    rcases hb with rfl | rfl <;> simp at hr
  constructor
  · rintro (⟨n, h1, h2⟩ | ⟨t, n, h, _⟩ | ⟨t, n, h, _⟩)
    · exact ⟨n, (isDecimal_text _ _).1 h1, by omega, h2⟩
    · exact absurd h (hs _ (.inl rfl) t)
    · exact absurd h (hs _ (.inr rfl) t)
  · rintro ⟨n, h1, _, h2⟩
    exact .inl ⟨n, (isDecimal_text _ _).2 h1, h2⟩

theorem numeral_unique {l : List Nat} {m n : Nat} (h1 : Numeral l m) (h2 : Numeral l n) : m = n :=
  h1.2.2.symm.trans h2.2.2

theorem neg_toInt {i : BitVec 64} {n : Nat} (h : i.toInt = n) : (-i).toInt = -(n : Int) := by
  have hhi := BitVec.toInt_lt (x := i)
  rw [BitVec.toInt_neg, h]
  rw [Int.bmod_eq_of_le] <;> omega

/-! ### One token -/

/-- The input starts with a text that spells the token, and white space. -/
def Good (env : ScanEnv) (l : List Nat) (o : Scanned) : Prop :=
  ∃ lexeme gap, l = lexeme ++ gap ++ o.rest ∧ lexeme ≠ [] ∧ (∀ r ∈ gap, isSpace r = true) ∧
    o.token ≠ .eof ∧ Spells env o.token lexeme

theorem good_error (env : ScanEnv) (l : List Nat) (r : Nat) {o : Scanned} {b : Bool}
    (h : o.token = .error b) (hs : o.rest <:+ l) : Good env (r :: l) o := by
  obtain ⟨used, e⟩ := hs
  refine ⟨r :: used, [], by simp [e], by simp, by simp, by simp [h], ?_⟩
  rw [h]
  simp [Spells]

theorem good_identifier (env : ScanEnv) (r : Nat) (rest : List Nat)
    (h : env.letter r = true ∨ r = 95) :
    Good env (r :: rest) (scanIdentifier env false (runeBytes r) rest) := by
  rw [scanIdentifier_eq, runeBytes_eq, ← text_cons]
  have hp : PlainName env (r :: rest.takeWhile env.identRune) := by
    refine ⟨r, _, rfl, h, ?_⟩
    intro c hc
    have := mem_takeWhile hc
    simpa [ScanEnv.identRune, or_assoc] using this
  refine ⟨r :: rest.takeWhile env.identRune, [], ?_, by simp, by simp, ?_, ?_⟩
  · simp
  · simp only [ScanEnv.identToken]
    split <;> simp
  · simp only [ScanEnv.identToken]
    split
    · rename_i hr
      simp only [isReserved] at hr
      exact ⟨hp, rfl, by simpa using hr⟩
    · rename_i hr
      simp only [isReserved] at hr
      exact .inl ⟨hp, rfl, by simpa using hr⟩

theorem good_string (env : ScanEnv) (esc : Bool) (pre rest : List Nat)
    (h : (esc = false ∧ pre = [39]) ∨ ∃ c, (c = 101 ∨ c = 69) ∧ esc = true ∧ pre = [c, 39]) :
    Good env (pre ++ rest) (scanString false esc rest) := by
  have := quoted_sound esc _ rest (Nat.le_refl _) []
  unfold scanString
  revert this
  generalize scanQuotedConstant false esc [] rest = o
  have hne : pre ≠ [] := by rcases h with ⟨_, rfl⟩ | ⟨c, _, _, rfl⟩ <;> simp
  obtain ⟨o, b, rest2⟩ := o
  cases o with
  | some i =>
    rintro ⟨used, e⟩
    refine ⟨pre ++ used, [], by simp [e], by simp [hne], by simp, by simp, ?_⟩
    simp [Spells, hne]
  | none =>
    rintro ⟨body, gap, v, e1, e2, e3, e4⟩
    refine ⟨pre ++ body, gap, by simp [e1], by simp [hne], e4, by simp, ?_⟩
    simp only [List.nil_append] at e3
    subst e3
    rcases h with ⟨rfl, rfl⟩ | ⟨c, hc, rfl, rfl⟩
    · exact .inl ⟨body, rfl, e2⟩
    · exact .inr ⟨c, body, hc, rfl, e2⟩

theorem good_bytes (env : ScanEnv) (rest : List Nat) :
    Good env (98 :: 39 :: rest) (scanBytes false true rest) := by
  have := quoted_sound true _ rest (Nat.le_refl _) []
  unfold scanBytes
  revert this
  generalize scanQuotedConstant false true [] rest = o
  obtain ⟨o, b, rest2⟩ := o
  cases o with
  | some i =>
    rintro ⟨used, e⟩
    refine ⟨98 :: 39 :: used, [], by simp [e], by simp, by simp, by simp, ?_⟩
    simp [Spells]
  | none =>
    rintro ⟨body, gap, v, e1, e2, e3, e4⟩
    refine ⟨98 :: 39 :: body, gap, by simp [e1], by simp, e4, by simp, ?_⟩
    simp only [List.nil_append] at e3
    subst e3
    exact .inl ⟨body, rfl, e2⟩

theorem good_hexBytes (env : ScanEnv) (r : Nat) (h : r = 120 ∨ r = 88) (rest : List Nat) :
    Good env (r :: 39 :: rest) (scanHexBytes [] rest) := by
  rcases hexBytes_spec _ rest (Nat.le_refl _) [] with ⟨body, b, rest2, e1, e2, e3⟩ | ⟨h1, h2⟩
  · rw [e3]
    refine ⟨r :: 39 :: body ++ [39], [], by simp [e1], by simp, by simp, by simp, ?_⟩
    exact .inr ⟨r, body, h, rfl, by simpa using e2⟩
  · exact good_error env (39 :: rest) r h1 (h2.trans (List.suffix_cons _ _))

theorem good_quotedIdentifier (env : ScanEnv) (a b : Nat) (h : (a, b) ∈ nameQuotes)
    (rest : List Nat) : Good env (a :: rest) (scanQuotedIdentifier env b [] rest) := by
  rcases quotedIdentifier_spec env b rest [] with ⟨body, rest2, e1, e2, e3⟩ | ⟨h1, h2⟩
  · rw [e3]
    refine ⟨a :: body ++ [b], [], by simp [e1], by simp, by simp, by simp, ?_⟩
    exact .inr ⟨a, b, body, h, rfl, e2, by simp⟩
  · exact good_error env rest a h1 (by rw [h2]; exact List.nil_suffix)

theorem good_number (env : ScanEnv) (neg : Bool) (pre : List Nat) (hs : Sign pre neg) (r : Nat)
    (hr : env.digit r = true) (rest : List Nat) :
    Good env (pre ++ r :: rest) (scanNumber env false neg false (runeBytes r) rest) := by
  rw [scanNumber_eq]
  have frac : ∀ m : List Nat, rest.dropWhile env.digit = 46 :: m →
      Good env (pre ++ r :: rest) (scanNumber env false neg true
        (runeBytes r ++ text (rest.takeWhile env.digit) ++ runeText 46) m) := by
    intro m hm
    rw [scanFraction_eq]
    have el : pre ++ r :: rest =
        (pre ++ (r :: rest.takeWhile env.digit) ++ 46 :: m.takeWhile env.digit) ++
          m.dropWhile env.digit := by
      have : rest = rest.takeWhile env.digit ++ 46 :: m := by
        rw [← hm, List.takeWhile_append_dropWhile]
      conv => lhs; rw [this]
      simp
    refine ⟨pre ++ (r :: rest.takeWhile env.digit) ++ 46 :: m.takeWhile env.digit, [], ?_, ?_,
      by simp, ?_, ?_⟩
    · rw [List.append_nil]; exact el
    · simp
    · simp only [ScanEnv.numberToken, if_true]
      split <;> simp
    · simp only [ScanEnv.numberToken, if_true]
      split
      · simp [Spells]
      · rename_i g hg
        refine ⟨pre, neg, r :: rest.takeWhile env.digit, m.takeWhile env.digit, g, rfl, hs,
          by simp, ?_, ?_, rfl⟩
        · intro c hc
          simp only [List.cons_append, List.mem_cons, List.mem_append] at hc
          rcases hc with rfl | hc | hc
          · exact hr
          · exact mem_takeWhile hc
          · exact mem_takeWhile hc
        · rw [← hg]
          simp [text_append, text_cons, runeBytes_eq]
  have whole : Good env (pre ++ r :: rest)
      ⟨env.numberToken neg false (runeBytes r ++ text (rest.takeWhile env.digit)),
        runeBytes r ++ text (rest.takeWhile env.digit), rest.dropWhile env.digit⟩ := by
    refine ⟨pre ++ r :: rest.takeWhile env.digit, [], by simp, by simp, by simp, ?_, ?_⟩
    · simp only [ScanEnv.numberToken, Bool.false_eq_true, if_false]
      split <;> simp
    · simp only [ScanEnv.numberToken, Bool.false_eq_true, if_false]
      split
      · simp [Spells]
      · rename_i i hi
        rw [runeBytes_eq, ← text_cons, parseInt64_text hr] at hi
        obtain ⟨n, h1, h2, h3⟩ := hi
        refine ⟨pre, neg, _, n, rfl, hs, h1, h2, ?_⟩
        cases neg with
        | false => simpa using h3
        | true => simpa using neg_toInt h3
  split
  · rename_i m hm; exact frac m hm
  · exact whole

theorem good_parameter (env : ScanEnv) (r : Nat) (hr : env.digit r = true) (rest : List Nat) :
    Good env (36 :: r :: rest) (scanParameter env false (runeBytes r) rest) := by
  rw [scanParameter_eq, runeBytes_eq, ← text_cons]
  refine ⟨36 :: r :: rest.takeWhile env.digit, [], by simp, by simp, by simp, ?_, ?_⟩
  · simp only [parameterToken]
    split
    · simp
    · split <;> simp
  · simp only [parameterToken]
    split
    · simp [Spells]
    · rename_i i hi
      split
      · simp [Spells]
      · rename_i h0
        rw [parseInt64_text hr] at hi
        obtain ⟨n, h1, h2, h3⟩ := hi
        refine ⟨_, n, rfl, h1, ?_, h2, h3⟩
        apply Nat.pos_of_ne_zero
        rintro rfl
        apply h0
        apply BitVec.eq_of_toInt_eq
        simpa using h3

theorem operators_spells (env : ScanEnv) (r r2 : Nat) (t : Token)
    (h : operators.lookup [r, r2] = some t) : Spells env t [r, r2] ∧ t ≠ .eof := by
  have e : operators = [([124, 124], .barBar), ([60, 60], .lessLess), ([60, 61], .lessEqual),
    ([60, 62], .lessGreater), ([62, 62], .greaterGreater), ([62, 61], .greaterEqual),
    ([61, 61], .equalEqual), ([33, 61], .bangEqual)] := by decide
  rw [e] at h
  simp only [List.lookup] at h
  repeat' (split at h)
  all_goals first
    | (cases h; done)
    | (cases h; rename_i hb; simp only [beq_iff_eq] at hb; rw [hb]; exact ⟨rfl, by simp⟩)

theorem isOpRune_mem {r : Nat} (h : isOpRune r = true) : r ∈ runes "+-*/%=<>&|!.,()@" := by
  have e : runes "+-*/%=<>&|!.,()@" =
    [43, 45, 42, 47, 37, 61, 60, 62, 38, 124, 33, 46, 44, 40, 41, 64] := by decide
  simp only [isOpRune, List.map_cons, List.map_nil, decide_eq_true_eq] at h
  rw [e]
  revert h
  simp only [List.mem_cons, List.not_mem_nil, or_false]
  have : '-'.toNat = 45 ∧ '+'.toNat = 43 ∧ '*'.toNat = 42 ∧ '/'.toNat = 47 ∧ '%'.toNat = 37 ∧
    '='.toNat = 61 ∧ '<'.toNat = 60 ∧ '>'.toNat = 62 ∧ '&'.toNat = 38 ∧ '|'.toNat = 124 ∧
    '!'.toNat = 33 := by decide
  omega

theorem good_rune (env : ScanEnv) (r : Nat) (h : r ∈ runes "+-*/%=<>&|!.,()@") (rest : List Nat)
    (buf : Bytes) : Good env (r :: rest) ⟨.rune r, buf, rest⟩ :=
  ⟨[r], [], by simp, by simp, by simp, by simp, rfl, h⟩

theorem good_operator (env : ScanEnv) (r : Nat) (h : isOpRune r = true) (rest : List Nat) :
    Good env (r :: rest) (scanOperator false r rest) := by
  have hr := fun rest buf => good_rune env r (isOpRune_mem h) rest buf
  cases rest with
  | nil => simpa [scanOperator, reread] using hr [] _
  | cons r2 rest2 =>
    simp only [scanOperator]
    split
    · exact hr _ _
    · split
      · split
        · rename_i t ht
          obtain ⟨h1, h2⟩ := operators_spells env r r2 t ht
          exact ⟨[r, r2], [], by simp, by simp, by simp, h2, h1⟩
        · exact good_error env _ r rfl (List.suffix_cons _ _)
      · exact hr _ _

theorem good_start (env : ScanEnv) (r : Nat) (rest : List Nat) (l : List Nat)
    (h : skip .space l = some (r, rest)) : Good env (r :: rest) (scan env false l) := by
  unfold scan
  rw [h]
  have e1 : ';'.toNat = 59 := rfl
  have e2 : 'e'.toNat = 101 := rfl
  have e3 : 'E'.toNat = 69 := rfl
  have e4 : '\''.toNat = 39 := rfl
  have e5 : 'b'.toNat = 98 := rfl
  have e6 : 'x'.toNat = 120 := rfl
  have e7 : 'X'.toNat = 88 := rfl
  have e8 : '_'.toNat = 95 := rfl
  have e9 : '+'.toNat = 43 := rfl
  have e10 : '-'.toNat = 45 := rfl
  have e11 : '"'.toNat = 34 := rfl
  have e12 : '`'.toNat = 96 := rfl
  have e13 : '['.toNat = 91 := rfl
  have e14 : ']'.toNat = 93 := rfl
  have e15 : '.'.toNat = 46 := rfl
  have e16 : ','.toNat = 44 := rfl
  have e17 : '('.toNat = 40 := rfl
  have e18 : ')'.toNat = 41 := rfl
  have e19 : '@'.toNat = 64 := rfl
  have e20 : '$'.toNat = 36 := rfl
  simp only [e1, e2, e3, e4, e5, e6, e7, e8, e9, e10, e11, e12, e13, e14, e15, e16, e17, e18, e19,
    e20]
  have er : ∀ l : List Nat, reread false l = l := by intro l; cases l <;> rfl
  have letter : ∀ r, r = 101 ∨ r = 69 ∨ r = 98 ∨ r = 120 ∨ r = 88 → env.letter r = true := by
    intro r hr
    rw [env.letter_ascii r (by omega)]
    rcases hr with rfl | rfl | rfl | rfl | rfl <;> rfl
  have em : runes "+-*/%=<>&|!.,()@" =
    [43, 45, 42, 47, 37, 61, 60, 62, 38, 124, 33, 46, 44, 40, 41, 64] := by decide
  by_cases h1 : r = 59
  · rw [if_pos h1]
    subst h1
    exact ⟨[59], [], by simp, by simp, by simp, by simp, rfl⟩
  rw [if_neg h1, er]
  by_cases h2 : r = 101 ∨ r = 69
  · rw [if_pos h2]
    have hl := letter r (by omega)
    split
    · exact good_identifier env r [] (.inl hl)
    · split
      · rename_i r2 rest2 hq
        subst hq
        exact good_string env true [r, 39] rest2 (.inr ⟨r, h2, rfl, rfl⟩)
      · exact good_identifier env r _ (.inl hl)
  rw [if_neg h2]
  by_cases h3 : r = 98
  · rw [if_pos h3]
    have hl := letter r (by omega)
    split
    · exact good_identifier env r [] (.inl hl)
    · split
      · rename_i r2 rest2 hq
        subst hq h3
        exact good_bytes env rest2
      · exact good_identifier env r _ (.inl hl)
  rw [if_neg h3]
  by_cases h4 : r = 120 ∨ r = 88
  · rw [if_pos h4]
    have hl := letter r (by omega)
    split
    · exact good_identifier env r [] (.inl hl)
    · split
      · rename_i r2 rest2 hq
        subst hq
        exact good_hexBytes env r h4 rest2
      · exact good_identifier env r _ (.inl hl)
  rw [if_neg h4]
  by_cases h5 : env.letter r = true ∨ r = 95
  · rw [if_pos h5]
    exact good_identifier env r rest h5
  rw [if_neg h5]
  by_cases h6 : env.digit r = true
  · rw [if_pos h6]
    exact good_number env false [] (.inl ⟨rfl, rfl⟩) r h6 rest
  rw [if_neg h6]
  by_cases h7 : r = 43
  · rw [if_pos h7]
    have hm : r ∈ runes "+-*/%=<>&|!.,()@" := by rw [em]; simp [h7]
    split
    · exact good_rune env r hm _ _
    · split
      · rename_i r2 rest2 hd
        subst h7
        exact good_number env false [43] (.inr (.inl ⟨rfl, rfl⟩)) r2 hd rest2
      · exact good_rune env r hm _ _
  rw [if_neg h7]
  by_cases h8 : r = 45
  · rw [if_pos h8]
    have hm : r ∈ runes "+-*/%=<>&|!.,()@" := by rw [em]; simp [h8]
    split
    · exact good_rune env r hm _ _
    · split
      · rename_i r2 rest2 hd
        subst h8
        exact good_number env true [45] (.inr (.inr ⟨rfl, rfl⟩)) r2 hd rest2
      · exact good_rune env r hm _ _
  rw [if_neg h8]
  by_cases h9 : r = 34 ∨ r = 96
  · rw [if_pos h9]
    exact good_quotedIdentifier env r r (by rcases h9 with rfl | rfl <;> simp [nameQuotes]) rest
  rw [if_neg h9]
  by_cases h10 : r = 91
  · rw [if_pos h10]
    subst h10
    exact good_quotedIdentifier env 91 93 (by simp [nameQuotes]) rest
  rw [if_neg h10]
  by_cases h11 : r = 39
  · rw [if_pos h11]
    subst h11
    exact good_string env false [39] rest (.inl ⟨rfl, rfl⟩)
  rw [if_neg h11]
  by_cases h12 : isOpRune r = true
  · rw [if_pos h12]
    exact good_operator env r h12 rest
  rw [if_neg h12]
  by_cases h13 : r = 46 ∨ r = 44 ∨ r = 40 ∨ r = 41 ∨ r = 64
  · rw [if_pos h13]
    exact good_rune env r (by
      rw [em]
      simp only [List.mem_cons, List.not_mem_nil, or_false]
      omega) rest _
  rw [if_neg h13]
  by_cases h14 : r = 36
  · rw [if_pos h14]
    subst h14
    split
    · exact good_error env _ _ rfl (List.suffix_refl _)
    · split
      · rename_i r2 rest2 hd
        exact good_parameter env r2 hd rest2
      · exact good_error env _ _ rfl (List.suffix_cons _ _)
  rw [if_neg h14]
  exact good_error env _ _ rfl (List.suffix_refl _)

theorem scan_spec (env : ScanEnv) (l : List Nat) :
    ∃ blank lexeme gap, l = blank ++ lexeme ++ gap ++ (scan env false l).rest ∧ Skipped blank ∧
      (∀ r ∈ gap, isSpace r = true) ∧
      (((scan env false l).token = .eof ∧ Dangling lexeme ∧ gap = [] ∧
          (scan env false l).rest = []) ∨
        ((scan env false l).token ≠ .eof ∧ lexeme ≠ [] ∧
          Spells env (scan env false l).token lexeme)) := by
  have hs := skip_spec l
  generalize hk : skip .space l = o at hs
  cases o with
  | none =>
    obtain ⟨b, d, e, h1, h2⟩ := hs
    have : scan env false l = ⟨.eof, [], []⟩ := by simp [scan, hk]
    rw [this]
    exact ⟨b, d, [], by simp [e], h1, by simp, .inl ⟨rfl, h2, rfl, rfl⟩⟩
  | some p =>
    obtain ⟨r, rest⟩ := p
    obtain ⟨b, e, h1, _⟩ := hs
    obtain ⟨lexeme, gap, g1, g2, g3, g4, g5⟩ := good_start env r rest l hk
    refine ⟨b, lexeme, gap, ?_, h1, g3, .inr ⟨g4, g2, g5⟩⟩
    refine e.trans ?_
    rw [g1]
    simp

/-! ### What is left of the input, for a reader that can fail -/

/-- `m` is the end of `l`, or the rune 0 that came with an error. -/
def Tail (l m : List Nat) : Prop := m <:+ l ∨ m = [0]

theorem tail_reread (fails : Bool) (l : List Nat) : Tail l (reread fails l) := by
  cases l with
  | nil => cases fails <;> simp [reread, Tail]
  | cons r l => exact .inl (List.suffix_refl _)

theorem tail_suffix {l m o : List Nat} (h : Tail l m) (ho : o <:+ m) : Tail l o := by
  rcases h with h | rfl
  · exact .inl (ho.trans h)
  · rcases List.suffix_cons_iff.1 ho with rfl | h
    · exact .inr rfl
    · rw [List.suffix_nil.1 h]; exact .inl List.nil_suffix

theorem tail_trans {l m o : List Nat} (h : Tail l m) (ho : Tail m o) : Tail l o := by
  rcases ho with ho | rfl
  · exact tail_suffix h ho
  · exact .inr rfl

theorem tail_cons {l m : List Nat} (r : Nat) (h : Tail l m) : Tail (r :: l) m :=
  tail_trans (.inl (List.suffix_cons _ _)) h

theorem identifier_suffix (env : ScanEnv) (fails : Bool) : ∀ (l : List Nat) (buf : Bytes),
    (scanIdentifier env fails buf l).rest <:+ l
  | [], buf => by cases fails <;> simp [scanIdentifier]
  | r :: l, buf => by
    unfold scanIdentifier
    split
    · exact (identifier_suffix env fails l _).trans (List.suffix_cons _ _)
    · exact List.suffix_refl _

theorem number_suffix (env : ScanEnv) (fails neg : Bool) : ∀ (l : List Nat) (dbl : Bool)
    (buf : Bytes), (scanNumber env fails neg dbl buf l).rest <:+ l
  | [], dbl, buf => by cases fails <;> simp [scanNumber]
  | r :: l, dbl, buf => by
    unfold scanNumber
    split
    · exact (number_suffix env fails neg l _ _).trans (List.suffix_cons _ _)
    · split
      · exact (number_suffix env fails neg l _ _).trans (List.suffix_cons _ _)
      · exact List.suffix_refl _

theorem parameter_suffix (env : ScanEnv) (fails : Bool) : ∀ (l : List Nat) (buf : Bytes),
    (scanParameter env fails buf l).rest <:+ l
  | [], buf => by cases fails <;> simp [scanParameter]
  | r :: l, buf => by
    unfold scanParameter
    split
    · exact (parameter_suffix env fails l _).trans (List.suffix_cons _ _)
    · exact List.suffix_refl _

theorem quotedIdentifier_suffix (env : ScanEnv) (d : Nat) : ∀ (l : List Nat) (buf : Bytes),
    (scanQuotedIdentifier env d buf l).rest <:+ l
  | [], buf => List.suffix_refl _
  | r :: l, buf => by
    unfold scanQuotedIdentifier
    split
    · exact List.suffix_cons _ _
    · exact (quotedIdentifier_suffix env d l _).trans (List.suffix_cons _ _)

theorem hexBytes_suffix (l : List Nat) (buf : Bytes) : (scanHexBytes buf l).rest <:+ l := by
  rcases hexBytes_spec _ l (Nat.le_refl _) buf with ⟨body, b, rest, e1, _, e3⟩ | h
  · rw [e3, e1]
    exact (List.suffix_cons _ _).trans (List.suffix_append _ _)
  · exact h.2

theorem operator_tail (fails : Bool) (r : Nat) (l : List Nat) :
    Tail l (scanOperator fails r l).rest := by
  cases l with
  | nil => exact tail_reread fails []
  | cons r2 rest =>
    simp only [scanOperator]
    split
    · exact .inl (List.suffix_refl _)
    · split
      · split <;> exact .inl (List.suffix_cons _ _)
      · exact .inl (List.suffix_refl _)

theorem quoted_tail (fails esc : Bool) : ∀ (n : Nat) (l : List Nat), l.length ≤ n → ∀ buf : Bytes,
    Tail l (scanQuotedConstant fails esc buf l).2.2 := by
  intro n
  induction n with
  | zero =>
    intro l hl buf
    have : l = [] := List.length_eq_zero_iff.1 (by omega)
    subst this
    rw [scanQuotedConstant]
    exact .inl (List.suffix_refl _)
  | succ n ih =>
    intro l hl buf
    cases l with
    | nil => rw [scanQuotedConstant]; exact .inl (List.suffix_refl _)
    | cons r rest =>
      have hlen : rest.length ≤ n := by simpa using hl
      apply tail_cons
      rw [quoted_cons]
      split
      · cases rest with
        | nil => exact tail_reread fails []
        | cons r2 rest2 =>
          simp only
          have h2 : rest2.length ≤ n := by simp at hlen; omega
          split
          · obtain ⟨ws, e, _⟩ := dropWhile_space_spec rest2
            generalize rest2.dropWhile isSpace = d at e
            cases d with
            | nil => cases fails <;> exact .inl List.nil_suffix
            | cons r3 rest3 =>
              simp only
              have hs : r3 :: rest3 <:+ r2 :: rest2 :=
                List.IsSuffix.trans ⟨ws, e.symm⟩ (List.suffix_cons _ _)
              split
              · have := ih rest3 (by
                  have := hs.length_le
                  simp only [List.length_cons] at this hlen
                  omega) buf
                exact tail_trans (.inl ((List.suffix_cons _ _).trans hs)) this
              · exact .inl hs
          · split
            · exact .inl (List.suffix_refl _)
            · exact tail_cons _ (ih rest2 h2 _)
      · split
        · have hs := escape_suffix rest
          cases hE : scanEscape rest with
          | mk o rest2 =>
            rw [hE] at hs
            cases o with
            | none => exact .inl hs
            | some c =>
              simp only
              split
              · exact .inl hs
              · split
                · exact .inl hs
                · exact tail_trans (.inl hs) (ih rest2 (Nat.le_trans hs.length_le hlen) _)
        · exact ih rest hlen _

theorem string_tail (fails esc : Bool) (l : List Nat) : Tail l (scanString fails esc l).rest := by
  have := quoted_tail fails esc _ l (Nat.le_refl _) []
  unfold scanString
  revert this
  generalize scanQuotedConstant fails esc [] l = o
  obtain ⟨o, b, rest⟩ := o
  cases o <;> exact id

theorem bytes_tail (fails esc : Bool) (l : List Nat) : Tail l (scanBytes fails esc l).rest := by
  have := quoted_tail fails esc _ l (Nat.le_refl _) []
  unfold scanBytes
  revert this
  generalize scanQuotedConstant fails esc [] l = o
  obtain ⟨o, b, rest⟩ := o
  cases o <;> exact id

theorem start_tail (env : ScanEnv) (fails : Bool) (r : Nat) (rest l : List Nat)
    (h : skip .space l = some (r, rest)) :
    Tail rest (scan env fails l).rest ∧ (r = 0 → (scan env fails l).rest <:+ rest) := by
  unfold scan
  rw [h]
  have tr := tail_reread fails rest
  have z1 : env.letter 0 = false := by rw [env.letter_ascii 0 (by decide)]; rfl
  have z2 : env.digit 0 = false := by rw [env.digit_ascii 0 (by decide)]; rfl
  constructor
  · have hid : ∀ m, Tail rest m → Tail rest (scanIdentifier env fails (runeBytes r) m).rest :=
      fun m hm => tail_suffix hm (identifier_suffix env fails m _)
    have hnil : Tail rest [] := .inl List.nil_suffix
    have hrefl : Tail rest rest := .inl (List.suffix_refl _)
    have hpop : ∀ {r2 : Nat} {rest2 : List Nat}, Tail rest (r2 :: rest2) → Tail rest rest2 :=
      fun hm => tail_suffix hm (List.suffix_cons _ _)
    simp only
    generalize hm : reread fails rest = m at tr
    by_cases h1 : r = ';'.toNat
    · rw [if_pos h1]; exact hrefl
    rw [if_neg h1]
    by_cases h2 : r = 'e'.toNat ∨ r = 'E'.toNat
    · rw [if_pos h2]
      split
      · exact hid [] hnil
      · split
        · exact tail_trans (hpop tr) (string_tail ..)
        · exact hid _ tr
    rw [if_neg h2]
    by_cases h3 : r = 'b'.toNat
    · rw [if_pos h3]
      split
      · exact hid [] hnil
      · split
        · exact tail_trans (hpop tr) (bytes_tail ..)
        · exact hid _ tr
    rw [if_neg h3]
    by_cases h4 : r = 'x'.toNat ∨ r = 'X'.toNat
    · rw [if_pos h4]
      split
      · exact hid [] hnil
      · split
        · exact tail_suffix (hpop tr) (hexBytes_suffix ..)
        · exact hid _ tr
    rw [if_neg h4]
    by_cases h5 : env.letter r = true ∨ r = '_'.toNat
    · rw [if_pos h5]; exact hid _ hrefl
    rw [if_neg h5]
    by_cases h6 : env.digit r = true
    · rw [if_pos h6]; exact .inl (number_suffix ..)
    rw [if_neg h6]
    by_cases h7 : r = '+'.toNat
    · rw [if_pos h7]
      split
      · exact tail_reread fails _
      · split
        · exact tail_suffix (hpop hrefl) (number_suffix ..)
        · exact hrefl
    rw [if_neg h7]
    by_cases h8 : r = '-'.toNat
    · rw [if_pos h8]
      split
      · exact tail_reread fails _
      · split
        · exact tail_suffix (hpop hrefl) (number_suffix ..)
        · exact hrefl
    rw [if_neg h8]
    by_cases h9 : r = '"'.toNat ∨ r = '`'.toNat
    · rw [if_pos h9]; exact .inl (quotedIdentifier_suffix ..)
    rw [if_neg h9]
    by_cases h10 : r = '['.toNat
    · rw [if_pos h10]; exact .inl (quotedIdentifier_suffix ..)
    rw [if_neg h10]
    by_cases h11 : r = '\''.toNat
    · rw [if_pos h11]; exact string_tail ..
    rw [if_neg h11]
    by_cases h12 : isOpRune r = true
    · rw [if_pos h12]; exact operator_tail ..
    rw [if_neg h12]
    by_cases h13 : r = '.'.toNat ∨ r = ','.toNat ∨ r = '('.toNat ∨ r = ')'.toNat ∨ r = '@'.toNat
    · rw [if_pos h13]; exact hrefl
    rw [if_neg h13]
    by_cases h14 : r = '$'.toNat
    · rw [if_pos h14]
      split
      · exact hnil
      · split
        · exact tail_suffix (hpop hrefl) (parameter_suffix ..)
        · exact hpop hrefl
    rw [if_neg h14]
    exact hrefl
  · rintro rfl
    have z3 : isOpRune 0 = false := by decide
    simp [z1, z2, z3]

/-- What the next tokens can use up. -/
def weight (l : List Nat) : Nat := 2 * l.length - if l = [0] then 1 else 0

theorem weight_zero {l : List Nat} : weight l = 0 ↔ l = [] := by
  unfold weight
  constructor
  · intro h
    cases l with
    | nil => rfl
    | cons r l =>
      simp only [List.length_cons] at h
      split at h <;> omega
  · rintro rfl; simp

theorem scan_weight (env : ScanEnv) (fails : Bool) {l : List Nat} (h : l ≠ []) :
    weight (scan env fails l).rest < weight l := by
  have hs := skip_spec l
  have hpos : 0 < l.length := List.length_pos_iff.2 h
  have hw : 2 * l.length ≤ weight l + 1 := by unfold weight; split <;> omega
  have short : ∀ m : List Nat, m.length < l.length → weight m < weight l := by
    intro m hm
    have : weight m ≤ 2 * m.length := by unfold weight; omega
    omega
  generalize hk : skip .space l = o at hs
  cases o with
  | none =>
    have : (scan env fails l).rest = [] := by simp [scan, hk]
    rw [this]
    exact short [] (by simpa using hpos)
  | some p =>
    obtain ⟨r, rest⟩ := p
    obtain ⟨b, e, _, _⟩ := hs
    have hlen : rest.length < l.length := by rw [e]; simp; omega
    obtain ⟨h1, h2⟩ := start_tail env fails r rest l hk
    by_cases hr : r = 0
    · exact short _ (Nat.lt_of_le_of_lt (h2 hr).length_le hlen)
    · rcases h1 with h1 | h1
      · exact short _ (Nat.lt_of_le_of_lt h1.length_le hlen)
      · rw [h1]
        have hl0 : l ≠ [0] := by
          rintro rfl
          have := congrArg (r ∈ ·) e
          simp at this
          exact hr this
        have e1 : weight l = 2 * l.length := by unfold weight; rw [if_neg hl0]; rfl
        have e2 : weight [0] = 1 := rfl
        omega

/-! ### Complete tokens -/

theorem skip_line_complete : ∀ (body m : List Nat), 10 ∉ body →
    skip .line (body ++ 10 :: m) = skip .space m
  | [], m, _ => by simp [skip]
  | r :: body, m, h => by
    have h1 : r ≠ 10 := fun e => h (by simp [e])
    have e : '\n'.toNat = 10 := rfl
    simp only [List.cons_append, skip, e, if_neg h1]
    exact skip_line_complete body m (fun hb => h (by simp [hb]))

theorem occurs_cons {a b r : Nat} {c : List Nat} :
    Occurs [a, b] (r :: c) ↔ (r = a ∧ c.head? = some b) ∨ Occurs [a, b] c := by
  constructor
  · rintro ⟨x, y, e⟩
    cases x with
    | nil =>
      simp only [List.nil_append, List.cons_append, List.cons.injEq] at e
      obtain ⟨e1, e2⟩ := e
      exact .inl ⟨e1, by rw [e2]; rfl⟩
    | cons x0 x =>
      simp only [List.cons_append, List.cons.injEq] at e
      exact .inr ⟨x, y, e.2⟩
  · rintro (⟨rfl, h⟩ | ⟨x, y, e⟩)
    · cases c with
      | nil => simp at h
      | cons c0 c =>
        simp only [List.head?_cons, Option.some.injEq] at h
        subst h
        exact ⟨[], c, rfl⟩
    · exact ⟨r :: x, y, by simp [e]⟩

theorem skip_block_complete : ∀ (body m : List Nat) (p : Nat),
    ¬ Occurs [42, 47] (p :: (body ++ [42])) →
    skip (.block p) (body ++ [42, 47] ++ m) = skip .space m
  | [], m, p, _ => by
    have e1 : '*'.toNat = 42 := rfl
    have e2 : '/'.toNat = 47 := rfl
    simp [skip]
  | r :: body, m, p, h => by
    have e1 : '*'.toNat = 42 := rfl
    have e2 : '/'.toNat = 47 := rfl
    rw [occurs_cons, not_or] at h
    have h1 : ¬ (p = 42 ∧ r = 47) := by
      rintro ⟨rfl, rfl⟩
      exact h.1 ⟨rfl, rfl⟩
    simp only [List.cons_append, skip, e1, e2, if_neg h1]
    exact skip_block_complete body m r (by simpa using h.2)

theorem skip_complete {b : List Nat} (h : Skipped b) {r : Nat} {rest : List Nat}
    (hs : Starts r rest) : skip .space (b ++ r :: rest) = some (r, rest) := by
  induction h with
  | nil => exact skip_start hs
  | space c l hc _ ih =>
    rw [← ih, List.cons_append]
    cases h : l ++ r :: rest with
    | nil => simp at h
    | cons x y => simp [skip, hc]
  | line body l hb _ ih =>
    rw [← ih, runes_dashes]
    have := skip_line_complete body (l ++ r :: rest) hb
    have h0 : isSpace 45 = false := by decide
    simp only [List.cons_append, List.nil_append, List.append_assoc, skip, h0]
    simpa using this
  | block body l hb _ ih =>
    rw [← ih, runes_open, runes_close]
    have := skip_block_complete body (l ++ r :: rest) 0 (by
      rw [occurs_cons, not_or]
      exact ⟨by simp, by rw [runes_close, runes_star] at hb; exact hb⟩)
    have h0 : isSpace 47 = false := by decide
    simp only [List.cons_append, List.nil_append, List.append_assoc, skip, h0]
    simpa using this

theorem starts_of {r : Nat} (rest : List Nat) (h : isSpace r = false) (h1 : r ≠ 45) (h2 : r ≠ 47) :
    Starts r rest := ⟨h, fun e => absurd e h1, fun e => absurd e h2⟩

/-- The token of an input depends on the input from the first rune of the token. -/
theorem scan_blank (env : ScanEnv) (fails : Bool) {b : List Nat} (h : Skipped b) {r : Nat}
    {rest : List Nat} (hs : Starts r rest) :
    scan env fails (b ++ r :: rest) = scan env fails (r :: rest) := by
  simp only [scan, skip_complete h hs, skip_start hs]

theorem scan_string (env : ScanEnv) {body : List Nat} {v : Bytes} (h : Constant false body v)
    {rest : List Nat} (hc : ¬ Continues rest) :
    scan env false (39 :: (body ++ rest)) = ⟨.string v, v, rest.dropWhile isSpace⟩ := by
  have hs : Starts 39 (body ++ rest) := starts_of _ (by decide) (by decide) (by decide)
  have e := quoted_complete h [] rest hc
  simp only [scan, skip_start hs, scanString, e]
  have l : env.letter 39 = false := by rw [env.letter_ascii 39 (by decide)]; rfl
  have d : env.digit 39 = false := by rw [env.digit_ascii 39 (by decide)]; rfl
  simp [l, d]

theorem scan_escapeString (env : ScanEnv) {c : Nat} (hl : c = 101 ∨ c = 69) {body : List Nat}
    {v : Bytes} (h : Constant true body v) {rest : List Nat} (hc : ¬ Continues rest) :
    scan env false (c :: 39 :: (body ++ rest)) = ⟨.string v, v, rest.dropWhile isSpace⟩ := by
  have hs : Starts c (39 :: (body ++ rest)) :=
    starts_of _ (by rcases hl with rfl | rfl <;> decide) (by omega) (by omega)
  have e := quoted_complete h [] rest hc
  simp only [scan, skip_start hs, scanString]
  rcases hl with rfl | rfl <;> simp [reread, e]

theorem scan_escapeBytes (env : ScanEnv) {body : List Nat}
    {v : Bytes} (h : Constant true body v) {rest : List Nat} (hc : ¬ Continues rest) :
    scan env false (98 :: 39 :: (body ++ rest)) = ⟨.bytes v, v, rest.dropWhile isSpace⟩ := by
  have hs : Starts 98 (39 :: (body ++ rest)) :=
    starts_of _ (by decide) (by decide) (by decide)
  have e := quoted_complete h [] rest hc
  simp only [scan, skip_start hs, scanBytes]
  simp [reread, e]

theorem scan_hex (env : ScanEnv) {c : Nat} (hl : c = 120 ∨ c = 88) {body : List Nat} {b : Bytes}
    (h : HexPairs body b) (rest : List Nat) :
    scan env false (c :: 39 :: (body ++ 39 :: rest)) = ⟨.bytes b, b, rest⟩ := by
  have hs : Starts c (39 :: (body ++ 39 :: rest)) :=
    starts_of _ (by rcases hl with rfl | rfl <;> decide) (by omega) (by omega)
  have e := hexBytes_complete h [] rest
  simp only [scan, skip_start hs]
  rcases hl with rfl | rfl <;> simp [reread, e]

/-- What follows a whole number and ends it. -/
theorem number_whole (env : ScanEnv) (neg : Bool) {r : Nat} {ds rest : List Nat}
    (hd : ∀ c ∈ ds, 48 ≤ c ∧ c ≤ 57)
    (hr : ∀ c, rest.head? = some c → env.digit c = false ∧ c ≠ 46) :
    scanNumber env false neg false (runeBytes r) (ds ++ rest) =
      ⟨env.numberToken neg false (text (r :: ds)), text (r :: ds), rest⟩ := by
  have hdig : ∀ c ∈ ds, env.digit c = true := by
    intro c hc
    have := hd c hc
    rw [env.digit_ascii c (by omega)]
    simp; omega
  have et : rest.takeWhile env.digit = [] := by
    cases rest with
    | nil => rfl
    | cons c rest => simp [(hr c rfl).1]
  have ed : rest.dropWhile env.digit = rest := by
    cases rest with
    | nil => rfl
    | cons c rest => simp [(hr c rfl).1]
  rw [scanNumber_eq, List.dropWhile_append_of_pos hdig, List.takeWhile_append_of_pos hdig, et, ed,
    List.append_nil, runeBytes_eq, ← text_cons]
  split
  · exact absurd rfl (hr 46 rfl).2
  · rfl

theorem scan_number (env : ScanEnv) {s : List Nat} {minus : Bool} (hs : Sign s minus)
    {ds rest : List Nat} {n : Nat} (hd : Numeral ds n)
    (hr : ∀ c, rest.head? = some c → env.digit c = false ∧ c ≠ 46) :
    scan env false (s ++ (ds ++ rest)) =
      ⟨env.numberToken minus false (text ds), text ds, rest⟩ := by
  obtain ⟨hne, hdd, _⟩ := hd
  cases ds with
  | nil => exact absurd rfl hne
  | cons r ds =>
    have hr0 := hdd r (by simp)
    have hw := fun neg => number_whole env neg (r := r) (ds := ds) (fun c hc => hdd c (by simp [hc])) hr
    have hdig : env.digit r = true := by rw [env.digit_ascii r (by omega)]; simp; omega
    have hlet : env.letter r = false := by
      rw [env.letter_ascii r (by omega)]; simp; omega
    rcases hs with ⟨rfl, rfl⟩ | ⟨rfl, rfl⟩ | ⟨rfl, rfl⟩
    · have hst : Starts r (ds ++ rest) := starts_of _ (by
        unfold isSpace; simp; omega) (by omega) (by omega)
      have h1 : r ≠ ';'.toNat := by show r ≠ 59; omega
      have h2 : ¬ (r = 'e'.toNat ∨ r = 'E'.toNat) := by show ¬ (r = 101 ∨ r = 69); omega
      have h3 : r ≠ 'b'.toNat := by show r ≠ 98; omega
      have h4 : ¬ (r = 'x'.toNat ∨ r = 'X'.toNat) := by show ¬ (r = 120 ∨ r = 88); omega
      have h5 : r ≠ 95 := by omega
      simp only [scan, List.nil_append, List.cons_append, skip_start hst]
      rw [if_neg h1, if_neg h2, if_neg h3, if_neg h4, if_neg (by simp [hlet]; exact h5),
        if_pos hdig]
      exact hw false
    · have hst : Starts 43 (r :: (ds ++ rest)) :=
        starts_of _ (by decide) (by decide) (by decide)
      have l : env.letter 43 = false := by rw [env.letter_ascii 43 (by decide)]; rfl
      have d : env.digit 43 = false := by rw [env.digit_ascii 43 (by decide)]; rfl
      rw [show [43] ++ (r :: ds ++ rest) = 43 :: r :: (ds ++ rest) from rfl]
      unfold scan
      rw [skip_start hst]
      simpa [l, d, reread, hdig] using hw false
    · have hst : Starts 45 (r :: (ds ++ rest)) :=
        ⟨by decide, fun _ => ⟨by simp, by simp; omega⟩, by simp⟩
      have l : env.letter 45 = false := by rw [env.letter_ascii 45 (by decide)]; rfl
      have d : env.digit 45 = false := by rw [env.digit_ascii 45 (by decide)]; rfl
      rw [show [45] ++ (r :: ds ++ rest) = 45 :: r :: (ds ++ rest) from rfl]
      unfold scan
      rw [skip_start hst]
      simpa [l, d, reread, hdig] using hw true

theorem numberToken_text (env : ScanEnv) (minus : Bool) {ds : List Nat} {n : Nat}
    (hd : Numeral ds n) :
    env.numberToken minus false (text ds) =
      if n < 2 ^ 63 then .integer (BitVec.ofInt 64 (if minus = true then -(n : Int) else n))
      else .error false := by
  cases ds with
  | nil => exact absurd rfl hd.1
  | cons r ds =>
    have hr0 := hd.2.1 r (by simp)
    have hdig : env.digit r = true := by rw [env.digit_ascii r (by omega)]; simp; omega
    have key := fun i => parseInt64_text (env := env) (l := ds) hdig (i := i)
    simp only [ScanEnv.numberToken, Bool.false_eq_true, if_false]
    cases hp : parseInt64 (text (r :: ds)) with
    | none =>
      rw [if_neg]
      intro hn
      have hb : (BitVec.ofInt 64 n).toInt = n := by
        rw [BitVec.toInt_ofInt]
        exact Int.bmod_eq_of_le (by omega) (by omega)
      have := (key (BitVec.ofInt 64 n)).2 ⟨n, hd, hn, hb⟩
      rw [hp] at this
      cases this
    | some i =>
      obtain ⟨m, h1, h2, h3⟩ := (key i).1 hp
      have := numeral_unique h1 hd
      subst this
      rw [if_pos h2]
      simp only [Token.integer.injEq]
      apply BitVec.eq_of_toInt_eq
      cases minus with
      | false =>
        simp only [Bool.false_eq_true, if_false]
        rw [h3, BitVec.toInt_ofInt]
        exact (Int.bmod_eq_of_le (by omega) (by omega)).symm
      | true =>
        simp only [if_true]
        rw [neg_toInt h3, BitVec.toInt_ofInt]
        exact (Int.bmod_eq_of_le (by omega) (by omega)).symm

end Maho
