import Verif.Lemmas.Engine
/-
An instance of the parameters of the engine model, showing that its assumptions can be met.
-/
namespace Maho
open Spec

/-- The number of a byte string in bijective base 256. -/
def bytesNumber : Bytes → Nat
  | [] => 0
  | b :: bs => 1 + b.toNat + 256 * bytesNumber bs

/-- The byte string with the number, at most `fuel` bytes of it. -/
def numberBytes : Nat → Nat → Bytes
  | 0, _ => []
  | fuel + 1, n =>
    if n = 0 then [] else BitVec.ofNat 8 ((n - 1) % 256) :: numberBytes fuel ((n - 1) / 256)

theorem numberBytes_bytesNumber : ∀ (fuel : Nat) (s : Bytes), s.length ≤ fuel →
    numberBytes fuel (bytesNumber s) = s
  | 0, [], _ => rfl
  | 0, _ :: _, h => by simp at h
  | fuel + 1, [], _ => rfl
  | fuel + 1, b :: bs, h => by
    have hb := b.isLt
    have ih := numberBytes_bytesNumber fuel bs (by simp at h; omega)
    have hn : bytesNumber (b :: bs) = 1 + b.toNat + 256 * bytesNumber bs := rfl
    generalize bytesNumber (b :: bs) = n at hn
    simp only [numberBytes]
    rw [if_neg (by omega), hn]
    have h1 : (1 + b.toNat + 256 * bytesNumber bs - 1) % 256 = b.toNat := by omega
    have h2 : (1 + b.toNat + 256 * bytesNumber bs - 1) / 256 = bytesNumber bs := by omega
    rw [h1, h2, ih]
    simp

/-- Identifiers of quoted names: the fixed ones, and numbers from 1000 for the others. -/
def sampleIdent (s : Bytes) : Identifier :=
  match (initialIdentifiers.map (fun p => (ascii p.1, p.2))).lookup s with
  | some id => id
  | none => 1000 + (bytesNumber s : Int)

/-- Names of identifiers. -/
def sampleName (id : Identifier) : Bytes :=
  match Registry.initial.names.lookup id with
  | some s => s
  | none => numberBytes 200 (id - 1000).toNat

/-- What storing does to an identifier: reserved words keep theirs, others become the identifier
of the quoted name. -/
def sampleStoredId (id : Identifier) : Identifier := if id < 0 then id else sampleIdent (sampleName id)

theorem lookup_none_of_lt {l : List (Identifier × Bytes)} {id : Identifier}
    (h : ∀ p ∈ l, p.1 < id) : l.lookup id = none := by
  induction l with
  | nil => rfl
  | cons p l ih =>
    have hne : (id == p.1) = false := by
      have := h p (by simp)
      simp only [beq_eq_false_iff_ne, ne_eq]
      omega
    rw [List.lookup_cons, hne]
    exact ih (fun q hq => h q (List.mem_cons_of_mem _ hq))

theorem sampleName_ident (s : Bytes) (h : s.length ≤ 128) : sampleName (sampleIdent s) = s := by
  unfold sampleIdent
  split
  · next id hl =>
    have hm := mem_of_lookup hl
    have : ∀ p ∈ initialIdentifiers.map (fun p => (ascii p.1, p.2)), sampleName p.2 = p.1 := by
      decide +kernel
    exact this _ hm
  · unfold sampleName
    rw [lookup_none_of_lt]
    · simp only
      rw [show ((1000 : Int) + (bytesNumber s : Int) - 1000).toNat = bytesNumber s by omega]
      exact numberBytes_bytesNumber 200 s (by omega)
    · have : ∀ p ∈ Registry.initial.names, p.1 < 1000 := by decide +kernel
      intro p hp
      have := this p hp
      omega

theorem sampleIdent_nonneg (s : Bytes) : ¬ sampleIdent s < 0 := by
  unfold sampleIdent
  split
  · next id hl =>
    have hm := mem_of_lookup hl
    have : ∀ p ∈ initialIdentifiers.map (fun p => (ascii p.1, p.2)), ¬ p.2 < (0 : Int) := by
      decide +kernel
    exact this _ hm
  · omega

/-- A codec for table definitions. -/
def Codec.definition : Codec Definition :=
  (pair (bits 32) (pair (list int) (pair (list columnType) (list (bits 32))))).via
    (fun t => (t.version, t.columnNames, t.columnTypes, t.key))
    (fun p => ⟨p.1, p.2.1, p.2.2.1, p.2.2.2⟩) (by intro x; cases x; rfl)

/-- An instance of the parameters of the engine model. -/
def sampleEngine : EngineEnv where
  toStoreEnv := storeEnv sampleEnv sampleStoredId
  name := sampleName
  ident := sampleIdent
  encodeDef := Codec.definition.enc
  decodeDef b := (Codec.definition.dec b).map fun p => p.1.mapIds sampleStoredId
  float32 := id
  name_ident := sampleName_ident
  storedId_ident s h := by
    change sampleStoredId _ = _
    unfold sampleStoredId
    rw [if_neg (sampleIdent_nonneg s), sampleName_ident s h]
  name_storedId id h := by
    change sampleName (sampleStoredId id) = _
    unfold sampleStoredId
    split
    · rfl
    · exact sampleName_ident _ h
  decodeDef_encodeDef d := by
    have := Codec.definition.law d []
    rw [List.append_nil] at this
    rw [this]; rfl
  builtin := by
    have : ∀ p ∈ initialIdentifiers, sampleIdent (ascii p.1) = p.2 := by decide +kernel
    exact this

theorem sampleEngine_fits : SystemFits sampleEngine := by
  have : ∀ p ∈ systemTables sampleEngine, (Codec.definition.enc p.2.2).length ≤ 8192 := by
    decide +kernel
  exact this

end Maho
