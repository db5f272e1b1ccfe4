import Verif.Model.Storage
/-
A concrete encoding of table types, showing that the assumption of `StoreEnv` on encoding/gob
can be met.
-/
namespace Maho

/-- An encoder and a decoder of a prefix of the input. -/
structure Codec (α : Type) where
  enc : α → Bytes
  dec : Bytes → Option (α × Bytes)
  law : ∀ x rest, dec (enc x ++ rest) = some (x, rest)

namespace Codec

/-- The binary digits of `n` as bytes 1 and 2, and a zero byte. -/
def natBytes : Nat → Nat → Bytes
  | 0, _ => [0#8]
  | fuel + 1, n => if n = 0 then [0#8] else (if n % 2 = 0 then 1#8 else 2#8) :: natBytes fuel (n / 2)

def natFrom : Bytes → Option (Nat × Bytes)
  | [] => none
  | b :: bs =>
    if b = 0#8 then some (0, bs)
    else (natFrom bs).map fun p => (2 * p.1 + (if b = 1#8 then 0 else 1), p.2)

theorem natFrom_natBytes (rest : Bytes) :
    ∀ fuel n, n ≤ fuel → natFrom (natBytes fuel n ++ rest) = some (n, rest)
  | 0, n, h => by
    have : n = 0 := by omega
    subst this; rfl
  | fuel + 1, n, h => by
    unfold natBytes
    split
    · next h0 => subst h0; rfl
    · next h0 =>
      have ih := natFrom_natBytes rest fuel (n / 2) (by omega)
      simp only [List.cons_append, natFrom]
      rw [ih]
      split
      · rw [if_neg (by decide)]; simp; omega
      · rw [if_neg (by decide)]; simp; omega

def nat : Codec Nat := ⟨fun n => natBytes n n, natFrom, fun n rest => natFrom_natBytes rest n n (Nat.le_refl n)⟩

/-- Encode through a function with a left inverse. -/
def via {α β : Type} (c : Codec β) (f : α → β) (g : β → α) (h : ∀ x, g (f x) = x) : Codec α where
  enc x := c.enc (f x)
  dec b := (c.dec b).map fun p => (g p.1, p.2)
  law x rest := by rw [c.law]; simp [h]

def pair {α β : Type} (a : Codec α) (b : Codec β) : Codec (α × β) where
  enc x := a.enc x.1 ++ b.enc x.2
  dec bs := (a.dec bs).bind fun p => (b.dec p.2).map fun q => ((p.1, q.1), q.2)
  law x rest := by rw [List.append_assoc, a.law]; simp [b.law]

def many {α : Type} (c : Codec α) : Nat → Bytes → Option (List α × Bytes)
  | 0, bs => some ([], bs)
  | n + 1, bs => (c.dec bs).bind fun p => (many c n p.2).map fun q => (p.1 :: q.1, q.2)

theorem many_flatMap {α : Type} (c : Codec α) (rest : Bytes) :
    ∀ xs : List α, many c xs.length (xs.flatMap c.enc ++ rest) = some (xs, rest)
  | [] => rfl
  | x :: xs => by
    simp only [List.length_cons, many, List.flatMap_cons, List.append_assoc]
    rw [c.law]
    simp [many_flatMap c rest xs]

def list {α : Type} (c : Codec α) : Codec (List α) where
  enc xs := nat.enc xs.length ++ xs.flatMap c.enc
  dec bs := (nat.dec bs).bind fun p => many c p.1 p.2
  law xs rest := by rw [List.append_assoc, nat.law]; simp [many_flatMap]

def bits (n : Nat) : Codec (BitVec n) :=
  nat.via BitVec.toNat (BitVec.ofNat n) (by intro x; simp)

def int : Codec Int :=
  (pair nat nat).via (fun i => (i.toNat, (-i).toNat)) (fun p => (p.1 : Int) - p.2) (by intro x; simp; omega)

def bool : Codec Bool :=
  nat.via (fun b => if b then 1 else 0) (fun n => n == 1) (by intro b; cases b <;> rfl)

def valueType : Codec ValueType :=
  (pair nat int).via
    (fun | .unknown => (0, 0) | .bool => (1, 0) | .string => (2, 0) | .bytes => (3, 0)
         | .float64 => (4, 0) | .int64 => (5, 0) | .invalid n => (6, n))
    (fun | (0, _) => .unknown | (1, _) => .bool | (2, _) => .string | (3, _) => .bytes
         | (4, _) => .float64 | (5, _) => .int64 | (_, n) => .invalid n)
    (by intro x; cases x <;> rfl)

def columnType : Codec ColumnType :=
  (pair (pair valueType (bits 32)) (pair bool bool)).via
    (fun c => ((c.type, c.size), (c.fixed, c.notNull)))
    (fun p => ⟨p.1.1, p.1.2, p.2.1, p.2.2⟩) (by intro x; cases x; rfl)

def tableName : Codec TableName :=
  (pair int (pair int int)).via (fun n => (n.database, n.schema, n.table))
    (fun p => ⟨p.1, p.2.1, p.2.2⟩) (by intro x; cases x; rfl)

def tableType : Codec TableType :=
  (pair (pair (bits 32) tableName) (pair (list int) (pair (list columnType) (list (bits 32))))).via
    (fun t => ((t.version, t.name), (t.columnNames, t.columnTypes, t.key)))
    (fun p => ⟨p.1.1, p.1.2, p.2.1, p.2.2.1, p.2.2.2⟩) (by intro x; cases x; rfl)

end Codec

/-- A store environment for any float functions and any effect of storing on identifiers. -/
def storeEnv (float : FloatEnv) (storedId : Identifier → Identifier) : StoreEnv where
  float := float
  encodeType := Codec.tableType.enc
  decodeType b := (Codec.tableType.dec b).map fun p => p.1.mapIds storedId
  storedId := storedId
  decode_encode tt := by
    have := Codec.tableType.law tt []
    rw [List.append_nil] at this
    rw [this]; rfl

end Maho
