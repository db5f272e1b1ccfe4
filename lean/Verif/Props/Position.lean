import Verif.Lemmas.ReadScan
import Verif.Lemmas.Scan
import Verif.Props.Scan
/-
C56 for the scanner with `readRune` and `unreadRune`, and C68: the positions of tokens.
-/
namespace Maho
open Maho.Spec

/-! ### C56: the scanner on a reader -/

/-- The scanner that reads its input rune by rune, and puts back at most one, returns the tokens of
the scanner on lists. -/
theorem C56_scanner (env : ScanEnv) (fails : Bool) (ps : Nat → Position) (l : List Nat) (k : Nat)
    (pos : Position) :
    (Scanner.scan env fails pos (Scanner.after env fails ps (Scanner.init l) k)).1 =
      tokenAt env fails l k :=
  (Scanner.agrees_scan env pos (Scanner.tracks_after env fails ps l k)).1

example : (Scanner.scan asciiScan false ⟨0, 0⟩
      (Scanner.after asciiScan false (fun _ => ⟨0, 0⟩) (Scanner.init (runes "x <= -1 ;")) 2)).1 =
    .integer (-1) := by decide +kernel

/-! ### C68: positions -/

/-- An error at a token names the line and the column of its first character. Missing: tokens that
start with `-` or `/`, and the end of a statement and of the input. -/
theorem C68_position_partial (env : ScanEnv) (l : List Nat) (k : Nat) (blank rest : List Nat) (r : Nat)
    (hl : restAfter env false l k = blank ++ r :: rest) (hb : Skipped blank)
    (hr : isSpace r = false) (hn : r ∉ runes ";-/") :
    ∃ before, l = before ++ r :: rest ∧
      Scanner.positionAt env false l k = ⟨lineOf before, columnOf before + 1⟩ := by
  have h45 : r ≠ 45 := fun e => hn (by simp [e, runes])
  have h47 : r ≠ 47 := fun e => hn (by simp [e, runes])
  have h59 : r ≠ ';'.toNat := fun e => hn (by rw [e]; simp [runes])
  have hs := skip_complete (r := r) (rest := rest) hb ⟨hr, fun e => absurd e h45, fun e => absurd e h47⟩
  obtain ⟨-, -, -, -, -, hp⟩ := Scanner.agrees_scan env (Scanner.slots env false l k).1.1
    (Scanner.tracks_slots env false l k)
  rw [hl, hs] at hp
  dsimp only at hp
  rw [if_neg h59] at hp
  obtain ⟨s', e, -, hd⟩ := hp
  obtain ⟨d, e1, e2, -⟩ := hd rfl _ rfl
  obtain ⟨e3, e4⟩ := e2 h45 h47
  have h10 : r ≠ 10 := by
    rintro rfl
    exact absurd hr (by decide)
  refine ⟨d, e1, ?_⟩
  rw [lineOf_append, if_neg h10] at e3
  rw [columnOf_append, if_neg h10] at e4
  rw [← e3, ← e4]
  exact e

example : restAfter asciiScan false (runes "a\n  -- c\n bc = 1") 1 = runes "\n  -- c\n " ++ 98 :: runes "c = 1" ∧
    Scanner.positionAt asciiScan false (runes "a\n  -- c\n bc = 1") 1 = ⟨3, 2⟩ ∧
    98 ∉ runes ";-/" := by decide +kernel

/-- A token that starts with `-` or `/` gets the position after the character that follows it. -/
theorem C68_sign (env : ScanEnv) (l : List Nat) (k : Nat) (blank rest : List Nat) (r r2 : Nat)
    (hl : restAfter env false l k = blank ++ r :: r2 :: rest) (hb : Skipped blank)
    (hr : r = 45 ∧ r2 ≠ 45 ∨ r = 47 ∧ r2 ≠ 42) :
    ∃ before, l = before ++ r :: r2 :: rest ∧
      Scanner.positionAt env false l k =
        ⟨lineOf (before ++ [r, r2]), columnOf (before ++ [r, r2])⟩ := by
  have hs := skip_complete (r := r) (rest := r2 :: rest) hb
    ⟨by rcases hr with ⟨rfl, -⟩ | ⟨rfl, -⟩ <;> decide,
      fun e => ⟨by simp, by rcases hr with ⟨-, h⟩ | ⟨e', -⟩ <;> simp <;> omega⟩,
      fun e => ⟨by simp, by rcases hr with ⟨e', -⟩ | ⟨-, h⟩ <;> simp <;> omega⟩⟩
  obtain ⟨-, -, -, -, -, hp⟩ := Scanner.agrees_scan env (Scanner.slots env false l k).1.1
    (Scanner.tracks_slots env false l k)
  rw [hl, hs] at hp
  dsimp only at hp
  rw [if_neg (by rcases hr with ⟨rfl, -⟩ | ⟨rfl, -⟩ <;> decide)] at hp
  obtain ⟨s', e, -, hd⟩ := hp
  obtain ⟨d, e1, -, e2⟩ := hd rfl _ rfl
  obtain ⟨r3, l3, e3, e4, e5⟩ := e2 (hr.imp (·.1) (·.1))
  cases e3
  refine ⟨d, e1, ?_⟩
  rw [← e4, ← e5]
  exact e

-- The `-` is character 8 of line 1.
example : restAfter asciiScan false (runes "SELECT -\n a") 1 = runes " " ++ 45 :: 10 :: runes " a" ∧
    Scanner.positionAt asciiScan false (runes "SELECT -\n a") 1 = ⟨2, 0⟩ := by decide +kernel

/-- So the position is not that of the token: that of `-` is one column too far, or on the next
line. -/
theorem C68_minus :
    Scanner.positionAt asciiScan false (runes "SELECT -a") 1 = ⟨1, 9⟩ ∧
    Scanner.positionAt asciiScan false (runes "SELECT -\na") 1 = ⟨2, 0⟩ ∧
    Scanner.positionAt asciiScan false (runes "SELECT a / b") 2 = ⟨1, 11⟩ := by decide +kernel

/-- The end of a statement, and of the input, has the position that its slot had: that of the third
token before it. -/
theorem C68_end (env : ScanEnv) (l : List Nat) (k : Nat)
    (h : tokenAt env false l (k + 3) = .endOfStatement ∨ tokenAt env false l (k + 3) = .eof) :
    Scanner.positionAt env false l (k + 3) = Scanner.positionAt env false l k := by
  have hslot : (Scanner.slots env false l (k + 3)).1.1 = Scanner.positionAt env false l k := by
    rw [Scanner.slots_one, Scanner.slots_two, Scanner.positionAt]
  obtain ⟨e1, -, -, -, -, hp⟩ := Scanner.agrees_scan env (Scanner.slots env false l (k + 3)).1.1
    (Scanner.tracks_slots env false l (k + 3))
  rw [Scanner.positionAt_eq env false l (k + 3), ← hslot]
  have ht : tokenAt env false l (k + 3) = (scan env false (restAfter env false l (k + 3))).token := rfl
  rw [Scanner.scan_eq_from] at ht
  revert hp ht
  cases skip .space (restAfter env false l (k + 3)) with
  | none => exact fun hp _ => hp
  | some p =>
    obtain ⟨r, rest⟩ := p
    intro hp ht
    dsimp only at hp ht
    by_cases hr : r = ';'.toNat
    · rw [if_pos hr] at hp
      exact hp
    · rw [if_neg hr] at ht
      have := Scanner.from_ne (fails := false) env r rest
      rw [← ht] at this
      rcases h with h | h
      · exact absurd h this.1
      · exact absurd h this.2

/-- An error at the end of a statement names the place of a token before it, or no place. -/
theorem C68_semicolon :
    tokenAt asciiScan false (runes "SELECT a\nFROM ;") 3 = .endOfStatement ∧
    Scanner.positionAt asciiScan false (runes "SELECT a\nFROM ;") 3 = ⟨1, 1⟩ ∧
    Scanner.positionAt asciiScan false (runes "SELECT ;") 1 = ⟨0, 0⟩ := by decide +kernel

end Maho
