import Verif.Lemmas.Scan
import Verif.Model.Parse
/-
Helper lemmas for C62, C63 and C66: the tokens of a printed text.
-/
namespace Maho
open Maho.Spec

theorem scan_rest_lt (env : ScanEnv) {l : List Nat} (h : l ≠ []) :
    (scan env false l).rest.length < l.length := by
  obtain ⟨blank, lexeme, gap, e, _, _, h1 | h1⟩ := scan_spec env l
  · rw [h1.2.2.2]
    exact List.length_pos_iff.2 h
  · have := congrArg List.length e
    have hp := List.length_pos_iff.2 h1.2.1
    simp only [List.length_append] at this
    omega

theorem scan_nil (env : ScanEnv) : (scan env false []).token = .eof := by
  simp [scan, skip]

theorem tokenizeFuel_eq (env : ScanEnv) : ∀ (m n : Nat) (l : List Nat), l.length < m →
    l.length < n → tokenizeFuel env m l = tokenizeFuel env n l
  | 0, _, _, h, _ => absurd h (by omega)
  | _, 0, _, _, h => absurd h (by omega)
  | m + 1, n + 1, l, hm, hn => by
    unfold tokenizeFuel
    by_cases h : (scan env false l).token = .eof
    · simp [h]
    · have hl : l ≠ [] := by
        rintro rfl
        exact h (scan_nil env)
      have := scan_rest_lt env hl
      simp only [h, if_false]
      rw [tokenizeFuel_eq env m n _ (by omega) (by omega)]

theorem tokenize_nil (env : ScanEnv) : tokenize env [] = [] := by
  simp [tokenize, tokenizeFuel, scan_nil]

/-- The first token and the others. -/
theorem tokenize_scan (env : ScanEnv) {l : List Nat} (h : (scan env false l).token ≠ .eof) :
    tokenize env l = (scan env false l).token :: tokenize env (scan env false l).rest := by
  have hl : l ≠ [] := by
    rintro rfl
    exact h (scan_nil env)
  have := scan_rest_lt env hl
  have e : tokenize env l =
      (scan env false l).token :: tokenizeFuel env l.length (scan env false l).rest := by
    unfold tokenize
    rw [tokenizeFuel]
    simp [h]
  rw [e, tokenize, tokenizeFuel_eq env _ _ _ (by omega) (Nat.lt_succ_self _)]

theorem scan_space (env : ScanEnv) {r : Nat} (h : isSpace r = true) (l : List Nat) :
    scan env false (r :: l) = scan env false l := by
  have : skip .space (r :: l) = skip .space l := by
    cases l <;> simp [skip, h]
  simp only [scan, this]

theorem tokenize_space (env : ScanEnv) {r : Nat} (h : isSpace r = true) (l : List Nat) :
    tokenize env (r :: l) = tokenize env l := by
  by_cases he : (scan env false l).token = .eof
  · have : ∀ m, (scan env false m).token = .eof → tokenize env m = [] := by
      intro m hm
      unfold tokenize tokenizeFuel
      simp [hm]
    rw [this l he, this _ (by rw [scan_space env h]; exact he)]
  · rw [tokenize_scan env he, tokenize_scan env (by rw [scan_space env h]; exact he),
      scan_space env h]

theorem tokenize_dropSpace (env : ScanEnv) : ∀ l : List Nat,
    tokenize env (l.dropWhile isSpace) = tokenize env l
  | [] => rfl
  | r :: l => by
    by_cases h : isSpace r = true
    · rw [List.dropWhile_cons_of_pos h, tokenize_dropSpace env l, tokenize_space env h]
    · rw [List.dropWhile_cons_of_neg h]

/-- Before a rune that satisfies `ok`, and at the end, the text `l` is the token `t`. -/
def Lexes (env : ScanEnv) (ok : Nat → Prop) (l : List Nat) (t : Token) : Prop :=
  ∀ rest, (∀ c, rest.head? = some c → ok c) → tokenize env (l ++ rest) = t :: tokenize env rest

theorem Lexes.of_scan {env : ScanEnv} {ok : Nat → Prop} {l : List Nat} {t : Token} (ht : t ≠ .eof)
    (h : ∀ rest, (∀ c, rest.head? = some c → ok c) →
      (scan env false (l ++ rest)).token = t ∧ (scan env false (l ++ rest)).rest = rest) :
    Lexes env ok l t := by
  intro rest hr
  obtain ⟨h1, h2⟩ := h rest hr
  rw [tokenize_scan env (by rw [h1]; exact ht), h1, h2]

theorem Lexes.mono {env : ScanEnv} {ok ok2 : Nat → Prop} {l : List Nat} {t : Token}
    (h : Lexes env ok l t) (hok : ∀ c, ok2 c → ok c) : Lexes env ok2 l t :=
  fun rest hr => h rest fun c hc => hok c (hr c hc)

theorem identRune_of {env : ScanEnv} {r : Nat}
    (h : env.letter r = true ∨ env.digit r = true ∨ r = 95 ∨ r = 36) : env.identRune r = true := by
  unfold ScanEnv.identRune
  rcases h with h | h | h | h <;> simp [h]

theorem identToken_ne (env : ScanEnv) (b : Bytes) : env.identToken b ≠ .eof := by
  unfold ScanEnv.identToken
  split <;> simp

/-- A name that does not start with white space. -/
theorem scan_wideName (env : ScanEnv) {l : List Nat} (h : PlainName env l)
    (hs : ∀ r, l.head? = some r → isSpace r = false) {rest : List Nat}
    (hr : ∀ c, rest.head? = some c → env.identRune c = false ∧ c ≠ 39) :
    scan env false (l ++ rest) = ⟨env.identToken (text l), text l, rest⟩ := by
  obtain ⟨r, m, rfl, h1, h2⟩ := h
  have hsp := hs r rfl
  have hm : ∀ c ∈ m, env.identRune c = true := fun c hc => identRune_of (h2 c hc)
  have et : rest.takeWhile env.identRune = [] := by
    cases rest with
    | nil => rfl
    | cons c rest => simp [(hr c rfl).1]
  have ed : rest.dropWhile env.identRune = rest := by
    cases rest with
    | nil => rfl
    | cons c rest => simp [(hr c rfl).1]
  have hid : scanIdentifier env false (runeBytes r) (m ++ rest) =
      ⟨env.identToken (text (r :: m)), text (r :: m), rest⟩ := by
    rw [scanIdentifier_eq, List.dropWhile_append_of_pos hm, List.takeWhile_append_of_pos hm, et, ed,
      List.append_nil, runeBytes_eq, ← text_cons]
  have hlet : (65 ≤ r ∧ r ≤ 90) ∨ (97 ≤ r ∧ r ≤ 122) ∨ r = 95 ∨ 128 ≤ r := by
    by_cases hr128 : r < 128
    · rcases h1 with h1 | h1
      · rw [env.letter_ascii r hr128] at h1
        simp at h1
        omega
      · omega
    · omega
  have hst : Starts r (m ++ rest) := starts_of _ hsp (by omega) (by omega)
  have hq : ∀ r2 rest2, m ++ rest = r2 :: rest2 → r2 ≠ 39 := by
    intro r2 rest2 e
    cases m with
    | nil =>
      simp at e
      exact (hr r2 (by rw [e]; rfl)).2
    | cons c m =>
      simp at e
      rintro rfl
      have := hm c (by simp)
      rw [e.1] at this
      have l : env.letter 39 = false := by rw [env.letter_ascii 39 (by decide)]; rfl
      have d : env.digit 39 = false := by rw [env.digit_ascii 39 (by decide)]; rfl
      simp [ScanEnv.identRune, l, d] at this
  have hre : reread false (m ++ rest) = m ++ rest := by
    cases m ++ rest <;> rfl
  have h59 : r ≠ ';'.toNat := by show r ≠ 59; omega
  have hfin : scan env false (r :: m ++ rest) =
      ⟨env.identToken (text (r :: m)), text (r :: m), rest⟩ := by
    rw [show r :: m ++ rest = r :: (m ++ rest) from rfl]
    generalize m ++ rest = w at *
    unfold scan
    rw [skip_start hst]
    show ite _ _ _ = _
    rw [if_neg h59, hre]
    have hsplit : ∀ (f : List Nat → Scanned),
        (match w with
        | [] => scanIdentifier env false (runeBytes r) []
        | r2 :: rest2 =>
          if r2 = '\''.toNat then f rest2
          else scanIdentifier env false (runeBytes r) (r2 :: rest2)) =
        ⟨env.identToken (text (r :: m)), text (r :: m), rest⟩ := by
      intro f
      rw [← hid]
      cases w with
      | nil => rfl
      | cons r2 rest2 =>
        have : r2 ≠ '\''.toNat := hq r2 rest2 rfl
        simp only [if_neg this]
    by_cases c1 : r = 'e'.toNat ∨ r = 'E'.toNat
    · rw [if_pos c1]
      exact hsplit _
    rw [if_neg c1]
    by_cases c2 : r = 'b'.toNat
    · rw [if_pos c2]
      exact hsplit _
    rw [if_neg c2]
    by_cases c3 : r = 'x'.toNat ∨ r = 'X'.toNat
    · rw [if_pos c3]
      exact hsplit _
    have c4 : env.letter r = true ∨ r = '_'.toNat := h1
    rw [if_neg c3, if_pos c4]
    exact hid
  exact hfin

/-- A name that does not start with white space. -/
theorem Lexes.wideName (env : ScanEnv) {l : List Nat} (h : PlainName env l)
    (hs : ∀ r, l.head? = some r → isSpace r = false) :
    Lexes env (fun c => env.identRune c = false ∧ c ≠ 39) l (env.identToken (text l)) := by
  refine of_scan (identToken_ne _ _) fun rest hr => ?_
  rw [scan_wideName env h hs hr]
  exact ⟨rfl, rfl⟩

/-- A name in ASCII. -/
theorem Lexes.name (env : ScanEnv) {l : List Nat} (h : PlainName env l) (hs : ∀ r ∈ l, r < 128) :
    Lexes env (fun c => env.identRune c = false ∧ c ≠ 39) l (env.identToken (text l)) := by
  refine wideName env h fun r hr => ?_
  obtain ⟨r', m, rfl, h1, _⟩ := h
  cases hr
  have hr128 := hs r (by simp)
  have hlet : (65 ≤ r ∧ r ≤ 90) ∨ (97 ≤ r ∧ r ≤ 122) ∨ r = 95 := by
    rcases h1 with h1 | h1
    · rw [env.letter_ascii r hr128] at h1
      simp at h1
      omega
    · omega
  unfold isSpace
  simp
  omega

/-- A whole number. -/
theorem Lexes.numeral (env : ScanEnv) {s ds : List Nat} {minus : Bool} {n : Nat} (hs : Sign s minus)
    (h : Numeral ds n) (hn : n < 2 ^ 63) :
    Lexes env (fun c => env.digit c = false ∧ c ≠ 46) (s ++ ds)
      (.integer (BitVec.ofInt 64 (if minus = true then -(n : Int) else n))) := by
  refine of_scan (by simp) fun rest hr => ?_
  rw [List.append_assoc, scan_number env hs h hr, numberToken_text env minus h, if_pos hn]
  exact ⟨rfl, rfl⟩

theorem letter_false (env : ScanEnv) {r : Nat} (h : r < 65) : env.letter r = false := by
  rw [env.letter_ascii r (by omega)]
  simp
  omega

theorem digit_false (env : ScanEnv) {r : Nat} (h : r < 48 ∨ (57 < r ∧ r < 128)) :
    env.digit r = false := by
  rw [env.digit_ascii r (by omega)]
  simp
  omega

/-- One of `.,()`. -/
theorem Lexes.mark (env : ScanEnv) {r : Nat} (h : r ∈ [46, 44, 40, 41]) :
    Lexes env (fun _ => True) [r] (.rune r) := by
  refine of_scan (by simp) fun rest _ => ?_
  have key : ∀ r, r ∈ [46, 44, 40, 41] → scan env false (r :: rest) = ⟨.rune r, [], rest⟩ := by
    intro r hr
    simp only [List.mem_cons, List.not_mem_nil, or_false] at hr
    have hst : Starts r rest := starts_of _ (by rcases hr with rfl | rfl | rfl | rfl <;> decide)
      (by omega) (by omega)
    have l := letter_false env (r := r) (by omega)
    have d := digit_false env (r := r) (by omega)
    have o : isOpRune r = false := by rcases hr with rfl | rfl | rfl | rfl <;> decide
    unfold scan
    rw [skip_start hst]
    rcases hr with rfl | rfl | rfl | rfl <;> simp [l, d, o]
  rw [show [r] ++ rest = r :: rest from rfl, key r h]
  exact ⟨rfl, rfl⟩

/-- An operator of one rune before a space. -/
theorem Lexes.op1 (env : ScanEnv) {r : Nat} (h : r ∈ [45, 43, 42, 47, 37, 61, 60, 62, 38, 124]) :
    ∀ rest, tokenize env (r :: 32 :: rest) = .rune r :: tokenize env rest := by
  intro rest
  have key : scan env false (r :: 32 :: rest) = ⟨.rune r, (scan env false (r :: 32 :: rest)).buf,
      32 :: rest⟩ := by
    have d := digit_false env (r := 32) (by omega)
    have l2 : ∀ c ∈ [45, 43, 42, 47, 37, 61, 60, 62, 38], env.letter c = false :=
      fun c hc => letter_false env (by simp at hc; omega)
    have d2 : ∀ c ∈ [45, 43, 42, 47, 37, 61, 60, 62, 38, 124], env.digit c = false :=
      fun c hc => digit_false env (by simp at hc; omega)
    have l3 : env.letter 124 = false := by rw [env.letter_ascii 124 (by decide)]; rfl
    simp only [List.mem_cons, List.not_mem_nil, or_false] at h
    have hsk : skip .space (r :: 32 :: rest) = some (r, 32 :: rest) := by
      rcases h with rfl | rfl | rfl | rfl | rfl | rfl | rfl | rfl | rfl | rfl <;>
        simp [skip, isSpace]
    unfold scan
    rw [hsk]
    have o : ∀ c ∈ [45, 43, 42, 47, 37, 61, 60, 62, 38, 124], isOpRune c = true := by decide
    have o2 : isOpRune 32 = false := by decide
    rcases h with rfl | rfl | rfl | rfl | rfl | rfl | rfl | rfl | rfl | rfl <;>
      simp [l2, l3, d, d2, o, o2, scanOperator]
  rw [tokenize_scan env (by rw [key]; simp)]
  rw [key]
  simp only
  rw [tokenize_space env (by decide)]

/-- An operator of two runes. -/
theorem Lexes.op2 (env : ScanEnv) {a b : Nat} {t : Token} (h : ([a, b], t) ∈ operators)
    (ht : t ≠ .eof) : Lexes env (fun _ => True) [a, b] t := by
  refine of_scan ht fun rest _ => ?_
  have key : scan env false (a :: b :: rest) =
      ⟨t, (scan env false (a :: b :: rest)).buf, rest⟩ := by
    have l2 : ∀ c ∈ [61, 60, 62, 33], env.letter c = false :=
      fun c hc => letter_false env (by simp at hc; omega)
    have d2 : ∀ c ∈ [61, 60, 62, 33, 124], env.digit c = false :=
      fun c hc => digit_false env (by simp at hc; omega)
    have l3 : env.letter 124 = false := by rw [env.letter_ascii 124 (by decide)]; rfl
    have o : ∀ c ∈ [61, 60, 62, 33, 124], isOpRune c = true := by decide
    simp [operators] at h
    rcases h with h | h | h | h | h | h | h | h <;> obtain ⟨⟨rfl, rfl⟩, rfl⟩ := h <;>
      (unfold scan
       rw [skip_start (starts_of _ (by decide) (by decide) (by decide))]
       simp [l2, l3, d2, o, scanOperator, operators, List.lookup])
  rw [show [a, b] ++ rest = a :: b :: rest from rfl, key]
  exact ⟨rfl, rfl⟩

/-- A string. -/
theorem tokenize_string (env : ScanEnv) {body : List Nat} {v : Bytes} (h : Constant false body v)
    {rest : List Nat} (hc : ¬ Continues rest) :
    tokenize env (39 :: (body ++ rest)) = .string v :: tokenize env rest := by
  have := scan_string env h hc
  rw [tokenize_scan env (by rw [this]; simp), this]
  simp only
  rw [tokenize_dropSpace]

end Maho
