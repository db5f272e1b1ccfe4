import Verif.Spec.Fields
import Verif.Spec.KeyOrder
import Verif.Lemmas.RoundTrip
/-
Lemmas on names of columns and on tags of fields, for C87.
-/
namespace Maho.Flds
open Spec

theorem isUpperByte_iff (b : Byte) : isUpperByte b = true ↔ Capital b := by
  simp [isUpperByte, Capital]

theorem isUpperByte_false (b : Byte) : isUpperByte b = false ↔ ¬ Capital b := by
  rw [← isUpperByte_iff]; simp

/-! ### Splitting and joining -/

theorem joined_cons (sep : Byte) (w : Bytes) (ws : List Bytes) :
    joined sep (w :: ws) = w ++ (ws.map (fun v => sep :: v)).flatten := by
  induction ws generalizing w with
  | nil => simp [joined]
  | cons v vs ih => simp [joined, ih]

theorem split_ne (sep : Byte) (s : Bytes) : splitBytes sep s ≠ [] := by
  cases s with
  | nil => simp [splitBytes]
  | cons b bs =>
    simp only [splitBytes]
    split
    · simp
    · split <;> simp

theorem joined_split (sep : Byte) (s : Bytes) : joined sep (splitBytes sep s) = s := by
  induction s with
  | nil => rfl
  | cons b bs ih =>
    simp only [splitBytes]
    split
    · next h =>
      cases hs : splitBytes sep bs with
      | nil => exact absurd hs (split_ne _ _)
      | cons f fs => rw [hs] at ih; subst h; simp [joined, ih]
    · cases hs : splitBytes sep bs with
      | nil => exact absurd hs (split_ne _ _)
      | cons f fs =>
        rw [hs, joined_cons] at ih
        simp [joined_cons, ih]

theorem split_part (sep : Byte) (s : Bytes) : ∀ w ∈ splitBytes sep s, ∀ b ∈ w, b ≠ sep := by
  induction s with
  | nil => simp [splitBytes]
  | cons b bs ih =>
    simp only [splitBytes]
    split
    · intro w hw
      rcases List.mem_cons.1 hw with rfl | hw
      · simp
      · exact ih w hw
    · next h =>
      cases hs : splitBytes sep bs with
      | nil => exact absurd hs (split_ne _ _)
      | cons f fs =>
        rw [hs] at ih
        intro w hw
        rcases List.mem_cons.1 hw with rfl | hw
        · intro c hc
          rcases List.mem_cons.1 hc with rfl | hc
          · exact h
          · exact ih f (by simp) c hc
        · exact ih w (by simp [hw])

theorem split_clean (sep : Byte) (w : Bytes) (h : ∀ b ∈ w, b ≠ sep) : splitBytes sep w = [w] := by
  induction w with
  | nil => rfl
  | cons b bs ih =>
    simp only [splitBytes]
    rw [if_neg (h b (by simp)), ih (fun c hc => h c (by simp [hc]))]

theorem split_append (sep : Byte) (w rest : Bytes) (h : ∀ b ∈ w, b ≠ sep) :
    splitBytes sep (w ++ sep :: rest) = w :: splitBytes sep rest := by
  induction w with
  | nil => simp [splitBytes]
  | cons b bs ih =>
    simp only [splitBytes, List.cons_append]
    rw [if_neg (h b (by simp)), ih (fun c hc => h c (by simp [hc]))]

theorem split_joined (sep : Byte) (ws : List Bytes) (hne : ws ≠ [])
    (h : ∀ w ∈ ws, ∀ b ∈ w, b ≠ sep) : splitBytes sep (joined sep ws) = ws := by
  induction ws with
  | nil => exact absurd rfl hne
  | cons w vs ih =>
    cases vs with
    | nil => exact split_clean sep w (h w (by simp))
    | cons v vs =>
      simp only [joined]
      rw [split_append sep w _ (h w (by simp)), ih (by simp) (fun x hx => h x (by simp [hx]))]

/-! ### Names -/

theorem snake_caps (cs rest : Bytes) (h : ∀ b ∈ cs, Capital b) :
    snakeLoop true (cs ++ rest) = cs.map small ++ snakeLoop true rest := by
  induction cs with
  | nil => rfl
  | cons c cs ih =>
    have hc := h c (by simp)
    simp only [List.cons_append, snakeLoop, (isUpperByte_iff c).2 hc, if_true, List.nil_append,
      List.map_cons, small, if_pos hc]
    rw [ih (fun b hb => h b (by simp [hb]))]

theorem snake_rest (u : Bool) (cs rest : Bytes) (h : ∀ b ∈ cs, ¬ Capital b) (hne : cs ≠ []) :
    snakeLoop u (cs ++ rest) = cs.map small ++ snakeLoop false rest := by
  induction cs generalizing u with
  | nil => exact absurd rfl hne
  | cons c cs ih =>
    have hc := h c (by simp)
    simp only [List.cons_append, snakeLoop, (isUpperByte_false c).2 hc, Bool.false_eq_true, if_false,
      List.map_cons, small, if_neg hc]
    cases cs with
    | nil => rfl
    | cons d ds => rw [ih false (fun b hb => h b (by simp [hb])) (by simp)]

/-- What comes after the first word. -/
def tailText (ws : List (Bytes × Bytes)) : Bytes :=
  (ws.map (fun w => 95#8 :: smallWord w)).flatten

theorem word_snake (w : Bytes × Bytes) (ws : List (Bytes × Bytes)) (h : Divided (w :: ws))
    (ih : Divided ws → snakeLoop false (ws.map wordText).flatten = tailText ws) :
    snakeLoop true (((w :: ws).map wordText).flatten) = smallWord w ++ tailText ws := by
  obtain ⟨h1, h2, h3, h4, h5⟩ := h
  simp only [List.map_cons, List.flatten_cons, wordText, List.append_assoc, smallWord, List.map_append]
  rw [snake_caps _ _ h2]
  by_cases hr : w.2 = []
  · have hw : ws = [] := Classical.byContradiction fun hw => h4 hw hr
    subst hw
    simp [hr, snakeLoop, tailText]
  · rw [snake_rest _ _ _ h3 hr]
    rw [← ih h5]

theorem snake_words (ws : List (Bytes × Bytes)) (h : Divided ws) :
    snakeLoop false (ws.map wordText).flatten = tailText ws := by
  induction ws with
  | nil => rfl
  | cons w ws ih =>
    have e := word_snake w ws h ih
    obtain ⟨h1, h2, -⟩ := h
    obtain ⟨c, r⟩ := w
    cases c with
    | nil => exact absurd rfl h1
    | cons b bs =>
      have hb := h2 b (by simp)
      simp only [List.map_cons, List.flatten_cons, wordText, List.cons_append, snakeLoop,
        (isUpperByte_iff b).2 hb, if_true, Bool.false_eq_true, if_false] at e ⊢
      simp only [List.nil_append] at e
      rw [e]
      simp [tailText]

theorem columnNameOf_words (ws : List (Bytes × Bytes)) (hne : ws ≠ []) (h : Divided ws) :
    columnNameOf (ws.map wordText).flatten = .ok (joined 95#8 (ws.map smallWord)) := by
  cases ws with
  | nil => exact absurd rfl hne
  | cons w ws =>
    have e := word_snake w ws h (snake_words ws)
    obtain ⟨h1, h2, -⟩ := h
    obtain ⟨c, r⟩ := w
    cases c with
    | nil => exact absurd rfl h1
    | cons b bs =>
      have hb := h2 b (by simp)
      simp only [List.map_cons, List.flatten_cons, wordText, List.cons_append, snakeLoop,
        (isUpperByte_iff b).2 hb, if_true, columnNameOf, List.nil_append] at e ⊢
      rw [e, joined_cons]
      simp [tailText, Function.comp_def]

theorem divide (s : Bytes) : ∃ r ws, (∀ b ∈ r, ¬ Capital b) ∧ Divided ws ∧
    s = r ++ (ws.map wordText).flatten := by
  induction s with
  | nil => exact ⟨[], [], by simp, trivial, rfl⟩
  | cons b bs ih =>
    obtain ⟨r, ws, h1, h2, h3⟩ := ih
    by_cases hb : Capital b
    · cases r with
      | cons c cs =>
        exact ⟨[], ([b], c :: cs) :: ws, by simp, ⟨by simp, by simpa using hb, h1, by simp, h2⟩,
          by simp [h3, wordText]⟩
      | nil =>
        cases ws with
        | nil => exact ⟨[], [([b], [])], by simp, ⟨by simp, by simpa using hb, by simp, by simp,
            trivial⟩, by simp [h3, wordText]⟩
        | cons w ws =>
          obtain ⟨g1, g2, g3, g4, g5⟩ := h2
          refine ⟨[], (b :: w.1, w.2) :: ws, by simp, ⟨by simp, ?_, g3, g4, g5⟩,
            by simp [h3, wordText]⟩
          intro c hc
          rcases List.mem_cons.1 hc with rfl | hc
          · exact hb
          · exact g2 c hc
    · refine ⟨b :: r, ws, ?_, h2, by simp [h3]⟩
      intro c hc
      rcases List.mem_cons.1 hc with rfl | hc
      · exact hb
      · exact h1 c hc

theorem columnNameOf_iff (n c : Bytes) : columnNameOf n = .ok c ↔ ColumnNamed n c := by
  constructor
  · intro h
    cases n with
    | nil => simp [columnNameOf] at h
    | cons b bs =>
      have hb : Capital b := by
        rw [← isUpperByte_iff]
        cases hu : isUpperByte b
        · simp [columnNameOf, hu] at h
        · rfl
      obtain ⟨r, ws, h1, h2, h3⟩ := divide (b :: bs)
      have hr : r = [] := by
        cases r with
        | nil => rfl
        | cons d ds =>
          simp only [List.cons_append, List.cons.injEq] at h3
          exact absurd hb (h3.1 ▸ h1 d (by simp))
      subst hr
      have hw : ws ≠ [] := by rintro rfl; simp at h3
      refine ⟨ws, hw, h2, by simpa using h3, ?_⟩
      have e := columnNameOf_words ws hw h2
      rw [List.nil_append] at h3
      rw [← h3, h] at e
      simpa using e
  · rintro ⟨ws, h1, h2, rfl, rfl⟩
    exact columnNameOf_words ws h1 h2

theorem columnNameOf_noErr (n : Bytes) (e : Err) : columnNameOf n ≠ .err e := by
  cases n with
  | nil => simp [columnNameOf]
  | cons b bs => simp only [columnNameOf]; split <;> simp

/-! ### Tags -/

/-- What a part of a tag puts in the map. -/
def kv : TagPart → Bytes × Bytes
  | .name s => (ascii "name", s)
  | .notNull => (ascii "notnull", [])
  | .primary => (ascii "primary", [])
  | .size s => (ascii "size", s)

theorem validTags_cases {k : Bytes} {v : Bool} (h : validTags.lookup k = some v) :
    (k = ascii "name" ∧ v = true) ∨ (k = ascii "notnull" ∧ v = false) ∨
    (k = ascii "primary" ∧ v = false) ∨ (k = ascii "size" ∧ v = true) := by
  unfold validTags at h
  simp only [List.lookup_cons] at h
  by_cases h1 : k = ascii "name"
  · subst h1; left; simpa using h.symm
  by_cases h2 : k = ascii "notnull"
  · subst h2; right; left; refine ⟨rfl, ?_⟩
    revert h; cases v <;> decide
  by_cases h3 : k = ascii "primary"
  · subst h3; right; right; left; refine ⟨rfl, ?_⟩
    revert h; cases v <;> decide
  by_cases h4 : k = ascii "size"
  · subst h4; right; right; right; refine ⟨rfl, ?_⟩
    revert h; cases v <;> decide
  · rw [beq_false_of_ne h1, beq_false_of_ne h2, beq_false_of_ne h3, beq_false_of_ne h4] at h
    simp at h

/-- One part: the text of the part, what it puts in the map. -/
theorem part_split (p : TagPart) (h : p.Fits) :
    ∃ vs, splitBytes 61#8 p.text = (kv p).1 :: vs ∧ (kv p).2 = vs.headD [] ∧
      ∃ b, validTags.lookup (kv p).1 = some b ∧
        ¬ (b = true ∧ vs.length ≠ 1 ∨ b = false ∧ vs.length ≠ 0) := by
  cases p with
  | name s =>
    refine ⟨[s], ?_, rfl, true, show validTags.lookup (ascii "name") = _ by decide, by simp⟩
    have : TagPart.text (.name s) = ascii "name" ++ 61#8 :: s := rfl
    rw [this, split_append _ _ _ (by decide), split_clean _ _ (fun b hb => (h b hb).2)]
    rfl
  | size s =>
    refine ⟨[s], ?_, rfl, true, show validTags.lookup (ascii "size") = _ by decide, by simp⟩
    have : TagPart.text (.size s) = ascii "size" ++ 61#8 :: s := rfl
    rw [this, split_append _ _ _ (by decide), split_clean _ _ (fun b hb => (h b hb).2)]
    rfl
  | notNull => exact ⟨[], by decide, rfl, false, by decide, by simp⟩
  | primary => exact ⟨[], by decide, rfl, false, by decide, by simp⟩

theorem part_of {fld k : Bytes} {vs : List Bytes} {b : Bool} (hc : ∀ x ∈ fld, x ≠ 44#8)
    (hs : splitBytes 61#8 fld = k :: vs) (hv : validTags.lookup k = some b)
    (hn : ¬ (b = true ∧ vs.length ≠ 1 ∨ b = false ∧ vs.length ≠ 0)) :
    ∃ p : TagPart, p.Fits ∧ fld = p.text ∧ (k, vs.headD []) = kv p := by
  have hj := joined_split 61#8 fld
  rw [hs] at hj
  have hp := split_part 61#8 fld
  rw [hs] at hp
  have two : b = true → ∃ v, vs = [v] := by
    intro hb
    cases vs with
    | nil => simp [hb] at hn
    | cons v vs =>
      cases vs with
      | nil => exact ⟨v, rfl⟩
      | cons w vs => simp [hb] at hn
  have one : b = false → vs = [] := by
    intro hb
    cases vs with
    | nil => rfl
    | cons v vs => simp [hb] at hn
  have fits : ∀ v, vs = [v] → ∀ x ∈ v, x ≠ 44#8 ∧ x ≠ 61#8 := by
    rintro v rfl x hx
    refine ⟨hc x ?_, hp v (by simp) x hx⟩
    rw [← hj]
    simp [joined, hx]
  rcases validTags_cases hv with ⟨rfl, hb⟩ | ⟨rfl, hb⟩ | ⟨rfl, hb⟩ | ⟨rfl, hb⟩
  · obtain ⟨v, hvs⟩ := two hb
    refine ⟨.name v, fits v hvs, ?_, ?_⟩
    · rw [← hj, hvs]; rfl
    · rw [hvs]; rfl
  · refine ⟨.notNull, trivial, ?_, ?_⟩
    · rw [← hj, one hb]; rfl
    · rw [one hb]; rfl
  · refine ⟨.primary, trivial, ?_, ?_⟩
    · rw [← hj, one hb]; rfl
    · rw [one hb]; rfl
  · obtain ⟨v, hvs⟩ := two hb
    refine ⟨.size v, fits v hvs, ?_, ?_⟩
    · rw [← hj, hvs]; rfl
    · rw [hvs]; rfl

theorem tagsLoop_parts (parts : List TagPart) (h : ∀ p ∈ parts, p.Fits)
    (tags : List (Bytes × Bytes)) :
    fieldTagsLoop (parts.map TagPart.text) tags = .ok ((parts.reverse.map kv) ++ tags) := by
  induction parts generalizing tags with
  | nil => rfl
  | cons p ps ih =>
    obtain ⟨vs, h1, h2, b, h3, h4⟩ := part_split p (h p (by simp))
    simp only [List.map_cons, fieldTagsLoop, h1, h3]
    rw [if_neg h4, ih (fun q hq => h q (by simp [hq])), ← h2]
    simp

theorem tagsLoop_of (flds : List Bytes) (hc : ∀ f ∈ flds, ∀ x ∈ f, x ≠ 44#8)
    (tags out : List (Bytes × Bytes)) (h : fieldTagsLoop flds tags = .ok out) :
    ∃ parts : List TagPart, (∀ p ∈ parts, p.Fits) ∧ flds = parts.map TagPart.text := by
  induction flds generalizing tags with
  | nil => exact ⟨[], by simp, rfl⟩
  | cons f fs ih =>
    simp only [fieldTagsLoop] at h
    cases hs : splitBytes 61#8 f with
    | nil => simp [hs] at h
    | cons k vs =>
      simp only [hs] at h
      cases hv : validTags.lookup k with
      | none => simp [hv] at h
      | some b =>
        simp only [hv] at h
        split at h
        · simp at h
        · next hn =>
          obtain ⟨p, h1, h2, -⟩ := part_of (hc f (by simp)) hs hv hn
          obtain ⟨ps, h3, h4⟩ := ih (fun g hg => hc g (by simp [hg])) _ h
          refine ⟨p :: ps, ?_, by simp [h2, h4]⟩
          intro q hq
          rcases List.mem_cons.1 hq with rfl | hq
          · exact h1
          · exact h3 q hq

theorem text_ne (p : TagPart) : p.text ≠ [] := by
  cases p
  · exact List.cons_ne_nil (110#8 : Byte) _
  · decide
  · decide
  · exact List.cons_ne_nil (115#8 : Byte) _

theorem text_comma (p : TagPart) (h : p.Fits) : ∀ b ∈ p.text, b ≠ 44#8 := by
  cases p with
  | name s =>
    intro b hb
    rcases List.mem_append.1 (show b ∈ ascii "name=" ++ s from hb) with hb | hb
    · clear h; exact (by decide : ∀ b ∈ ascii "name=", b ≠ 44#8) b hb
    · exact (h b hb).1
  | size s =>
    intro b hb
    rcases List.mem_append.1 (show b ∈ ascii "size=" ++ s from hb) with hb | hb
    · clear h; exact (by decide : ∀ b ∈ ascii "size=", b ≠ 44#8) b hb
    · exact (h b hb).1
  | notNull => decide
  | primary => decide

theorem fieldTags_says {tag : Bytes} {parts : List TagPart} (h : TagSays tag parts) :
    fieldTags tag = .ok (parts.reverse.map kv) := by
  obtain ⟨h1, rfl⟩ := h
  unfold fieldTags
  cases parts with
  | nil => rfl
  | cons p ps =>
    rw [if_neg, split_joined _ _ (by simp), tagsLoop_parts _ h1]
    · simp
    · intro w hw
      obtain ⟨q, hq, rfl⟩ := List.mem_map.1 hw
      exact text_comma q (h1 q hq)
    · rw [List.map_cons, joined_cons]
      simp [text_ne p]

theorem fieldTags_of {tag : Bytes} {tags : List (Bytes × Bytes)} (h : fieldTags tag = .ok tags) :
    ∃ parts, TagSays tag parts := by
  unfold fieldTags at h
  split at h
  · next ht => exact ⟨[], by simp, ht⟩
  · obtain ⟨parts, h1, h2⟩ := tagsLoop_of _ (split_part _ _) _ _ h
    exact ⟨parts, h1, by rw [← h2, joined_split]⟩

theorem says_unique {tag : Bytes} {ps qs : List TagPart} (h : TagSays tag ps) (g : TagSays tag qs) :
    ps.reverse.map kv = qs.reverse.map kv := by
  have := (fieldTags_says h).symm.trans (fieldTags_says g)
  simpa using this

theorem lookup_name (l : List TagPart) :
    (l.map kv).lookup (ascii "name") = (l.filterMap fun | .name s => some s | _ => none).head? := by
  induction l with
  | nil => rfl
  | cons p ps ih =>
    cases p with
    | name s => simp [kv]
    | notNull =>
      have : (ascii "name" == ascii "notnull") = false := by decide
      simp [kv, List.lookup_cons, this, ih]
    | primary =>
      have : (ascii "name" == ascii "primary") = false := by decide
      simp [kv, List.lookup_cons, this, ih]
    | size s =>
      have : (ascii "name" == ascii "size") = false := by decide
      simp [kv, List.lookup_cons, this, ih]

theorem lookup_size (l : List TagPart) :
    (l.map kv).lookup (ascii "size") = (l.filterMap fun | .size s => some s | _ => none).head? := by
  induction l with
  | nil => rfl
  | cons p ps ih =>
    cases p with
    | size s => simp [kv]
    | notNull =>
      have : (ascii "size" == ascii "notnull") = false := by decide
      simp [kv, List.lookup_cons, this, ih]
    | primary =>
      have : (ascii "size" == ascii "primary") = false := by decide
      simp [kv, List.lookup_cons, this, ih]
    | name s =>
      have : (ascii "size" == ascii "name") = false := by decide
      simp [kv, List.lookup_cons, this, ih]

theorem lookup_primary (l : List TagPart) :
    ((l.map kv).lookup (ascii "primary")).isSome = true ↔ TagPart.primary ∈ l := by
  induction l with
  | nil => simp
  | cons p ps ih =>
    cases p with
    | primary => simp [kv]
    | notNull =>
      have : (ascii "primary" == ascii "notnull") = false := by decide
      simp only [List.map_cons, kv, List.lookup_cons, this, ih]; simp
    | size s =>
      have : (ascii "primary" == ascii "size") = false := by decide
      simp only [List.map_cons, kv, List.lookup_cons, this, ih]; simp
    | name s =>
      have : (ascii "primary" == ascii "name") = false := by decide
      simp only [List.map_cons, kv, List.lookup_cons, this, ih]; simp

theorem lookup_notNull (l : List TagPart) :
    ((l.map kv).lookup (ascii "notnull")).isSome = true ↔ TagPart.notNull ∈ l := by
  induction l with
  | nil => simp
  | cons p ps ih =>
    cases p with
    | notNull => simp [kv]
    | primary =>
      have : (ascii "notnull" == ascii "primary") = false := by decide
      simp only [List.map_cons, kv, List.lookup_cons, this, ih]; simp
    | size s =>
      have : (ascii "notnull" == ascii "size") = false := by decide
      simp only [List.map_cons, kv, List.lookup_cons, this, ih]; simp
    | name s =>
      have : (ascii "notnull" == ascii "name") = false := by decide
      simp only [List.map_cons, kv, List.lookup_cons, this, ih]; simp

theorem lookup_tagName (parts : List TagPart) :
    (parts.reverse.map kv).lookup (ascii "name") = tagName parts := by
  rw [lookup_name, List.filterMap_reverse, List.head?_reverse]
  rfl

theorem lookup_tagSize (parts : List TagPart) :
    (parts.reverse.map kv).lookup (ascii "size") = tagSizeText parts := by
  rw [lookup_size, List.filterMap_reverse, List.head?_reverse]
  rfl

/-! ### Sizes -/

theorem parseDigits_iff (s : Bytes) (n : Nat) : parseDigits s = some n ↔
    s ≠ [] ∧ (∀ b ∈ s, 48 ≤ b.toNat ∧ b.toNat ≤ 57) ∧
      n = s.foldl (fun a b => a * 10 + (b.toNat - 48)) 0 := by
  unfold parseDigits
  split
  · next h =>
    simp only [List.all_eq_true, isDigit, decide_eq_true_eq] at h
    simp only [Option.some.injEq, digitsVal]
    exact ⟨fun e => ⟨h.1, h.2, e.symm⟩, fun e => e.2.2.symm⟩
  · next h =>
    simp only [List.all_eq_true, isDigit, decide_eq_true_eq] at h
    simp only [reduceCtorEq, false_iff]
    exact fun e => h ⟨e.1, e.2.1⟩

theorem size_text (s : Bytes) (m : BitVec 64) :
    (parseInt64 s = some m ∧ 0 < m.toInt) ↔ ∃ n, SizeText s n ∧ m = BitVec.ofNat 64 n := by
  have toInt : ∀ n : Nat, n < 2 ^ 63 → (BitVec.ofNat 64 n).toInt = n := by
    intro n hn
    rw [BitVec.toInt_eq_toNat_cond, BitVec.toNat_ofNat]
    have : n % 2 ^ 64 = n := Nat.mod_eq_of_lt (by omega)
    rw [this, if_pos (by omega)]
  constructor
  · rintro ⟨h, hp⟩
    cases s with
    | nil => simp [parseInt64] at h
    | cons c cs =>
      simp only [parseInt64] at h
      split at h
      · cases hd : parseDigits cs with
        | none => simp [hd] at h
        | some n =>
          simp only [hd] at h
          split at h
          · next hn =>
            simp only [Option.some.injEq] at h
            subst h
            exfalso
            rw [BitVec.toInt_ofInt] at hp
            rw [Int.bmod_def] at hp
            split at hp <;> omega
          · simp at h
      · cases hd : parseDigits (if c = 43#8 then cs else c :: cs) with
        | none => simp [hd] at h
        | some n =>
          simp only [hd] at h
          split at h
          · next hn =>
            simp only [Option.some.injEq] at h
            subst h
            rw [toInt n hn] at hp
            obtain ⟨h1, h2, h3⟩ := (parseDigits_iff _ _).1 hd
            refine ⟨n, ⟨_, h1, ?_, h2, h3, by omega, hn⟩, rfl⟩
            split
            · next hc => right; rw [hc]
            · left; rfl
          · simp at h
  · rintro ⟨n, ⟨ds, h1, h2, h3, h4, h5, h6⟩, rfl⟩
    refine ⟨?_, by rw [toInt n h6]; omega⟩
    have hd : parseDigits ds = some n := (parseDigits_iff _ _).2 ⟨h1, h3, h4⟩
    rcases h2 with rfl | rfl
    · cases s with
      | nil => exact absurd rfl h1
      | cons c cs =>
        have hc := h3 c (by simp)
        have c1 : c ≠ 45#8 := by rintro rfl; revert hc; decide
        have c2 : c ≠ 43#8 := by rintro rfl; revert hc; decide
        simp only [parseInt64, if_neg c1, if_neg c2, hd, if_pos h6]
    · simp only [parseInt64, if_pos, hd, if_pos h6]
      rfl

theorem tagSize_iff (parts : List TagPart) (sz : BitVec 32) :
    tagSize (parts.reverse.map kv) = .ok sz ↔ ∃ n, SizeSaid parts n ∧ sz = BitVec.ofNat 32 n := by
  unfold tagSize SizeSaid
  rw [lookup_tagSize]
  cases tagSizeText parts with
  | none =>
    simp only [Res.ok.injEq, exists_eq_left]
    exact eq_comm
  | some s =>
    have cut : ∀ n, (BitVec.ofNat 64 n).setWidth 32 = BitVec.ofNat 32 n := by
      intro n
      apply BitVec.eq_of_toNat_eq
      simp only [BitVec.toNat_setWidth, BitVec.toNat_ofNat]
      omega
    dsimp only
    constructor
    · intro h
      cases hp : parseInt64 s with
      | none => simp [hp] at h
      | some m =>
        simp only [hp] at h
        split at h
        · simp at h
        · next hm =>
          simp only [Res.ok.injEq] at h
          obtain ⟨n, h1, h2⟩ := (size_text s m).1 ⟨hp, by omega⟩
          exact ⟨n, h1, by rw [← h, h2, cut]⟩
    · rintro ⟨n, h1, rfl⟩
      obtain ⟨h2, h3⟩ := (size_text s _).2 ⟨n, h1, rfl⟩
      simp only [h2]
      rw [if_neg (by omega), cut]

/-! ### Fields -/

theorem kindType_iff (sz : BitVec 32) (k : Kind) (vt : ValueType) (out : BitVec 32) :
    kindType sz k = .ok (vt, out) ↔ ∃ fixed, columnOfKind k = some (vt, fixed) ∧
      out = (fixed.map (BitVec.ofNat 32)).getD sz := by
  cases k <;> simp only [kindType, columnOfKind, Res.ok.injEq, Prod.mk.injEq, Option.some.injEq,
    reduceCtorEq, false_and, exists_false] <;>
  · constructor
    · rintro ⟨rfl, rfl⟩
      exact ⟨_, ⟨rfl, rfl⟩, rfl⟩
    · rintro ⟨_, ⟨rfl, rfl⟩, rfl⟩
      exact ⟨rfl, rfl⟩

theorem columnOfKind_small {k : Kind} {vt : ValueType} {n : Nat}
    (h : columnOfKind k = some (vt, some n)) : n < 2 ^ 32 := by
  cases k <;> simp [columnOfKind] at h <;> omega

theorem typedField_of (env : EngineEnv) (fld : Field) (hs : SizeFits fld) (id : Identifier)
    (ct : ColumnType) (p : Bool) (h : typedField env fld = .ok (id, ct, p)) :
    ∃ col, FieldMakes fld col ct p ∧ id = env.ident col := by
  unfold typedField at h
  obtain ⟨tags, h1, h⟩ := res_bind_ok.1 h
  obtain ⟨col, h2, h⟩ := res_bind_ok.1 h
  obtain ⟨sz, h3, h⟩ := res_bind_ok.1 h
  obtain ⟨parts, hp⟩ := fieldTags_of h1
  rw [fieldTags_says hp] at h1
  simp only [Res.ok.injEq] at h1
  subst h1
  rw [lookup_tagName] at h2
  obtain ⟨n, hn, rfl⟩ := (tagSize_iff _ _).1 h3
  split at h
  · simp at h
  · next hpb =>
    obtain ⟨⟨vt, out⟩, h4, h⟩ := res_bind_ok.1 h
    dsimp only at h
    split at h
    · simp at h
    · next hnn =>
      simp only [Res.ok.injEq, Prod.mk.injEq] at h
      obtain ⟨rfl, rfl, rfl⟩ := h
      obtain ⟨fixed, h5, rfl⟩ := (kindType_iff _ _ _ _).1 h4
      have mem : ∀ x : TagPart, x ∈ parts.reverse ↔ x ∈ parts := fun x => List.mem_reverse
      refine ⟨col, ⟨parts, n, vt, fixed, hp, ?_, hn, h5, ?_, ?_, rfl, ?_, rfl, ?_, ?_⟩, rfl⟩
      · cases ht : tagName parts with
        | some s => simpa [ht, eq_comm] using h2
        | none => simp only [ht] at h2; exact (columnNameOf_iff _ _).1 h2
      · intro hk
        cases hpt : fld.pointer
        · rfl
        · exact absurd ⟨hpt, hk⟩ hpb
      · intro hk hm
        exact hnn ⟨hk, (lookup_notNull _).2 ((mem _).2 hm)⟩
      · cases fixed with
        | none =>
          have := hs parts n hp hn
          simp only [BitVec.toNat_ofNat, Option.map_none, Option.getD_none]
          exact Nat.mod_eq_of_lt this
        | some m =>
          have := columnOfKind_small h5
          simp only [BitVec.toNat_ofNat, Option.map_some, Option.getD_some]
          exact Nat.mod_eq_of_lt this
      · dsimp only
        split
        · rw [lookup_notNull, mem]
        · cases fld.pointer <;> simp
      · rw [lookup_primary, mem]

theorem typedField_makes (env : EngineEnv) (fld : Field) (col : Bytes) (ct : ColumnType) (p : Bool)
    (h : FieldMakes fld col ct p) : typedField env fld = .ok (env.ident col, ct, p) := by
  obtain ⟨parts, n, vt, fixed, h1, h2, h3, h4, h5, h6, h7, h8, h9, h10, h11⟩ := h
  have mem : ∀ x : TagPart, x ∈ parts.reverse ↔ x ∈ parts := fun x => List.mem_reverse
  unfold typedField
  rw [fieldTags_says h1, Res.bind_ok]
  refine res_bind_ok.2 ⟨col, ?_, ?_⟩
  · rw [lookup_tagName]
    cases ht : tagName parts with
    | some s => simp only [ht] at h2; rw [h2]
    | none => simp only [ht] at h2; exact (columnNameOf_iff _ _).2 h2
  rw [(tagSize_iff _ _).2 ⟨n, h3, rfl⟩, Res.bind_ok, if_neg,
    (kindType_iff _ _ _ _).2 ⟨fixed, h4, rfl⟩, Res.bind_ok]
  · dsimp only
    rw [if_neg]
    · obtain ⟨cty, csz, cfx, cnn⟩ := ct
      simp only at h7 h8 h9 h10
      have es : (fixed.map (BitVec.ofNat 32)).getD (BitVec.ofNat 32 n) = csz := by
        apply BitVec.eq_of_toNat_eq
        have hlt := csz.isLt
        cases fixed with
        | none =>
          simp only [BitVec.toNat_ofNat, Option.map_none, Option.getD_none] at h8 ⊢
          omega
        | some m =>
          simp only [BitVec.toNat_ofNat, Option.map_some, Option.getD_some] at h8 ⊢
          omega
      have en : (if fld.kind = .bytes then ((parts.reverse.map kv).lookup (ascii "notnull")).isSome
          else !fld.pointer) = cnn := by
        rw [Bool.eq_iff_iff, h10]
        split
        · rw [lookup_notNull, mem]
        · cases fld.pointer <;> simp
      have ep : ((parts.reverse.map kv).lookup (ascii "primary")).isSome = p := by
        rw [Bool.eq_iff_iff, h11, lookup_primary, mem]
      rw [es, en, ep, h7, h9]
    · rintro ⟨a, b⟩
      exact h6 a ((mem _).1 ((lookup_notNull _).1 b))
  · rintro ⟨a, b⟩
    rw [h5 b] at a
    simp at a

/-- The key as the loop makes it. -/
def keyOf : Nat → List Bool → List ColumnKey
  | _, [] => []
  | i, p :: ps => (if p then [makeColumnKey (BitVec.ofNat 32 i) false] else []) ++ keyOf (i + 1) ps

theorem typedFields_of (env : EngineEnv) (typ : List Field) (hs : ∀ fld ∈ typ, SizeFits fld)
    (i : Nat) (names : List Identifier) (cts : List ColumnType) (key : List ColumnKey)
    (h : typedFields env i typ = .ok (names, cts, key)) :
    ∃ cols, TypeMakes typ cols ∧ names = cols.map (fun c => env.ident c.1) ∧
      cts = cols.map (fun c => c.2.1) ∧ key = keyOf i (cols.map (fun c => c.2.2)) := by
  induction typ generalizing i names cts key with
  | nil =>
    simp only [typedFields, Res.ok.injEq, Prod.mk.injEq] at h
    obtain ⟨rfl, rfl, rfl⟩ := h
    exact ⟨[], .nil, rfl, rfl, rfl⟩
  | cons fld flds ih =>
    simp only [typedFields] at h
    obtain ⟨⟨id, ct, p⟩, h1, h⟩ := res_bind_ok.1 h
    obtain ⟨⟨ns, cs, ks⟩, h2, h⟩ := res_bind_ok.1 h
    simp only [Res.ok.injEq, Prod.mk.injEq] at h
    obtain ⟨rfl, rfl, rfl⟩ := h
    obtain ⟨col, g1, rfl⟩ := typedField_of env fld (hs fld (by simp)) _ _ _ h1
    obtain ⟨cols, g2, rfl, rfl, rfl⟩ := ih (fun f hf => hs f (by simp [hf])) _ _ _ _ h2
    exact ⟨(col, ct, p) :: cols, .cons g1 g2, rfl, rfl, rfl⟩

theorem typedFields_makes (env : EngineEnv) (typ : List Field)
    (cols : List (Bytes × ColumnType × Bool)) (h : TypeMakes typ cols) (i : Nat) :
    typedFields env i typ = .ok (cols.map (fun c => env.ident c.1), cols.map (fun c => c.2.1),
      keyOf i (cols.map (fun c => c.2.2))) := by
  induction h generalizing i with
  | nil => rfl
  | cons h1 _ ih =>
    simp only [typedFields]
    rw [typedField_makes env _ _ _ _ h1, Res.bind_ok]
    dsimp only
    rw [ih, Res.bind_ok]
    rfl

theorem all2_length {α β : Type} {R : α → β → Prop} {as : List α} {bs : List β} (h : All2 R as bs) :
    as.length = bs.length := by
  induction h <;> simp_all

theorem keyCols_keyOf (ps : List Bool) (i : Nat) (h : i + ps.length < 2 ^ 31) :
    keyCols (keyOf i ps) = keyNumbers i ps := by
  induction ps generalizing i with
  | nil => rfl
  | cons p ps ih =>
    simp only [List.length_cons] at h
    have ih := ih (i + 1) (by omega)
    unfold keyCols at ih ⊢
    simp only [keyOf, keyNumbers, List.map_append, ih]
    cases p with
    | false => rfl
    | true =>
      have hnat : (BitVec.ofNat 32 i + 1#32).toNat = i + 1 := by
        simp only [BitVec.toNat_add, BitVec.toNat_ofNat]; omega
      have hs : (BitVec.ofNat 32 i + 1#32).slt 0#32 = false := by
        rw [BitVec.slt_eq_decide, BitVec.toInt_eq_toNat_cond, hnat]
        simp only [decide_eq_false_iff_not, Int.not_lt]
        rw [if_pos (by omega)]
        simp
        omega
      simp only [if_true, List.map_cons, List.map_nil, makeColumnKey, Bool.false_eq_true, if_false,
        ColumnKey.column, ColumnKey.reverse, hs, BitVec.add_sub_cancel, BitVec.toNat_ofNat]
      rw [Nat.mod_eq_of_lt (by omega)]

/-! ### Distinct names -/

theorem small_clean {w : Bytes} (h : ∀ b ∈ w, b ≠ 95#8) : ∀ b ∈ w.map small, b ≠ 95#8 := by
  intro b hb
  obtain ⟨c, hc, rfl⟩ := List.mem_map.1 hb
  unfold small
  split
  · next hcap =>
    intro e
    have := congrArg BitVec.toNat e
    simp only [BitVec.toNat_add, BitVec.toNat_ofNat, Capital] at this hcap
    omega
  · exact h c hc

theorem words_same {ws vs : List (Bytes × Bytes)} (h1 : ws ≠ []) (h2 : vs ≠ [])
    (g1 : ∀ b ∈ (ws.map wordText).flatten, b ≠ 95#8)
    (g2 : ∀ b ∈ (vs.map wordText).flatten, b ≠ 95#8)
    (h : joined 95#8 (ws.map smallWord) = joined 95#8 (vs.map smallWord)) :
    ws.map smallWord = vs.map smallWord := by
  have clean : ∀ us : List (Bytes × Bytes), (∀ b ∈ (us.map wordText).flatten, b ≠ 95#8) →
      ∀ w ∈ us.map smallWord, ∀ b ∈ w, b ≠ 95#8 := by
    intro us hu w hw
    obtain ⟨u, hu', rfl⟩ := List.mem_map.1 hw
    exact small_clean fun b hb => hu b (List.mem_flatten.2 ⟨_, List.mem_map.2 ⟨u, hu', rfl⟩, hb⟩)
  have a := split_joined 95#8 _ (by simpa using h1) (clean ws g1)
  have b := split_joined 95#8 _ (by simpa using h2) (clean vs g2)
  rw [← a, ← b, h]

theorem small_inj_capital {a b : Byte} (ha : Capital a) (hb : Capital b) (h : small a = small b) :
    a = b := by
  unfold small at h
  rw [if_pos ha, if_pos hb] at h
  have := congrArg BitVec.toNat h
  simp only [BitVec.toNat_add, BitVec.toNat_ofNat, Capital] at this ha hb
  exact BitVec.eq_of_toNat_eq (by omega)

theorem map_small_rest {l : Bytes} (h : ∀ b ∈ l, ¬ Capital b) : l.map small = l := by
  induction l with
  | nil => rfl
  | cons b bs ih =>
    rw [List.map_cons, ih (fun c hc => h c (by simp [hc]))]
    unfold small
    rw [if_neg (h b (by simp))]

/-- The words of a name in camel case have one capital each. -/
theorem camel_words (ws : List (Bytes × Bytes)) (hd : Divided ws) (pre : Bytes)
    (h : CamelCase (pre ++ (ws.map wordText).flatten)) : ∀ w ∈ ws, ∃ c, w.1 = [c] := by
  induction ws generalizing pre with
  | nil => simp
  | cons v vs ih =>
    obtain ⟨h1, h2, -, -, h5⟩ := hd
    intro w hw
    rcases List.mem_cons.1 hw with rfl | hw
    · obtain ⟨c, r⟩ := w
      match c, h1, h2, h with
      | [c], _, _, _ => exact ⟨c, rfl⟩
      | c :: d :: ds, _, h2, h =>
        exfalso
        have := h.2 pre.length c d
        simp only [List.map_cons, List.flatten_cons, wordText, List.cons_append] at this
        apply this
        · simp
        · rw [List.getElem?_append_right (by omega)]
          simp
        · exact ⟨h2 c (by simp), h2 d (by simp)⟩
    · refine ih h5 (pre ++ wordText v) ?_ w hw
      simpa [List.append_assoc] using h

theorem camel_inj {ws vs : List (Bytes × Bytes)} (hw : Divided ws) (hv : Divided vs)
    (cw : ∀ w ∈ ws, ∃ c, w.1 = [c]) (cv : ∀ w ∈ vs, ∃ c, w.1 = [c])
    (h : ws.map smallWord = vs.map smallWord) : ws.map wordText = vs.map wordText := by
  induction ws generalizing vs with
  | nil => cases vs with
    | nil => rfl
    | cons => simp at h
  | cons w ws ih =>
    cases vs with
    | nil => simp at h
    | cons v vs =>
      simp only [List.map_cons, List.cons.injEq] at h
      obtain ⟨c, hc⟩ := cw w (by simp)
      obtain ⟨d, hd⟩ := cv v (by simp)
      obtain ⟨-, a2, a3, -, a5⟩ := hw
      obtain ⟨-, b2, b3, -, b5⟩ := hv
      have e := h.1
      simp only [smallWord, wordText, hc, hd, List.cons_append, List.nil_append, List.map_cons,
        List.cons.injEq, map_small_rest a3, map_small_rest b3] at e
      have ecd := small_inj_capital (a2 c (by simp [hc])) (b2 d (by simp [hd])) e.1
      simp only [List.map_cons]
      rw [ih a5 b5 (fun x hx => cw x (by simp [hx])) (fun x hx => cv x (by simp [hx])) h.2]
      simp [wordText, hc, hd, ecd, e.2]

theorem camel_same {f g c : Bytes} (hf : CamelCase f) (hg : CamelCase g) (h1 : ColumnNamed f c)
    (h2 : ColumnNamed g c) : f = g := by
  obtain ⟨ws, a1, a2, rfl, a4⟩ := h1
  obtain ⟨vs, b1, b2, rfl, b4⟩ := h2
  rw [camel_inj a2 b2 (camel_words ws a2 [] hf) (camel_words vs b2 [] hg)
    (words_same a1 b1 hf.1 hg.1 (a4.symm.trans b4))]

theorem all2_mem_right {α β : Type} {R : α → β → Prop} {as : List α} {bs : List β} (h : All2 R as bs)
    {b : β} (hb : b ∈ bs) : ∃ a ∈ as, R a b := by
  induction h with
  | nil => simp at hb
  | cons h1 _ ih =>
    rcases List.mem_cons.1 hb with rfl | hb
    · exact ⟨_, by simp, h1⟩
    · obtain ⟨a, ha, hr⟩ := ih hb
      exact ⟨a, by simp [ha], hr⟩

/-- The value, if there is one. -/
def okOf {α : Type} : Res α → Option α
  | .ok a => some a
  | _ => none

/-- No error is returned. -/
def NoErr {α : Type} (r : Res α) : Prop := ∀ e, r ≠ .err e

theorem NoErr.bind {α β : Type} {r : Res α} {f : α → Res β} (h : NoErr r) (g : ∀ a, NoErr (f a)) :
    NoErr (r >>= f) := by
  cases r with
  | ok a => exact g a
  | err e => exact absurd rfl (h e)
  | panic => intro e; simp

theorem NoErr.ok {α : Type} (a : α) : NoErr (Res.ok a) := by intro e; simp
theorem NoErr.panic {α : Type} : NoErr (Res.panic : Res α) := by intro e; simp

theorem fieldTagsLoop_noErr (flds : List Bytes) (tags : List (Bytes × Bytes)) :
    NoErr (fieldTagsLoop flds tags) := by
  induction flds generalizing tags with
  | nil => exact .ok _
  | cons f fs ih =>
    simp only [fieldTagsLoop]
    split
    · exact .panic
    · split
      · exact .panic
      · split
        · exact .panic
        · exact ih _

theorem typedField_noErr (env : EngineEnv) (fld : Field) : NoErr (typedField env fld) := by
  unfold typedField
  refine .bind ?_ fun tags => .bind ?_ fun name => .bind ?_ fun size => ?_
  · unfold fieldTags
    split
    · exact .ok _
    · exact fieldTagsLoop_noErr _ _
  · split
    · exact .ok _
    · exact columnNameOf_noErr _
  · unfold tagSize
    split
    · exact .ok _
    · split
      · exact .panic
      · split
        · exact .panic
        · exact .ok _
  · split
    · exact .panic
    · refine .bind ?_ fun x => ?_
      · cases fld.kind <;> first | exact .ok _ | exact .panic
      · dsimp only
        split
        · exact .panic
        · exact .ok _

theorem typedFields_noErr (env : EngineEnv) (typ : List Field) (i : Nat) :
    NoErr (typedFields env i typ) := by
  induction typ generalizing i with
  | nil => exact .ok _
  | cons fld flds ih =>
    simp only [typedFields]
    exact .bind (typedField_noErr env fld) fun _ => .bind (ih _) fun _ => .ok _

theorem makeTypedInfo_noErr (env : EngineEnv) (tid : TableId) (tn : TableName) (typ : List Field) :
    ∀ e, makeTypedInfo env tid tn typ ≠ .err e := by
  unfold makeTypedInfo
  exact NoErr.bind (typedFields_noErr env typ 0) fun _ => .ok _

end Maho.Flds
