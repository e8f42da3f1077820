/-!
# Specifications

Small definitions, independent of the model, in which the properties are stated.
-/

namespace Verif.Spec

/-- A vector of truth values as an array of 0 and 1. -/
def arr (u : List Bool) : List Nat := u.map Bool.toNat

/-- The number written in base two by a vector of bits, most significant bit first. -/
def numeral : List Bool → Nat
  | [] => 0
  | x :: t => x.toNat * 2 ^ t.length + numeral t

/-- The positions (counted from 0) at which a vector has another value than just before. -/
def changes (u : List Bool) : List Nat :=
  (List.range u.length).filter (fun i => 0 < i ∧ u[i]? ≠ u[i - 1]?)

/-- The compressed form of a vector: first value, positions of the changes, length. -/
def compressed (u : List Bool) : List Nat := (u.take 1).map Bool.toNat ++ changes u ++ [u.length]

/-- The positions marked by a vector. -/
def marked (u : List Bool) : List Nat := (List.range u.length).filter (fun i => u[i]? = some true)

/-- The points marked by every vector of a list (of vectors with `n` points). -/
def markedByAll (n : Nat) (vs : List (List Bool)) : List Bool :=
  (List.range n).map (fun i => decide (∀ v ∈ vs, v[i]? = some true))

/-- The points marked by some vector of a list (of vectors with `n` points). -/
def markedBySome (n : Nat) (vs : List (List Bool)) : List Bool :=
  (List.range n).map (fun i => decide (∃ v ∈ vs, v[i]? = some true))

/-- The points marked by some but not all vectors of a list. -/
def markedBySomeNotAll (n : Nat) (vs : List (List Bool)) : List Bool :=
  (List.range n).map (fun i => decide ((∃ v ∈ vs, v[i]? = some true) ∧ ¬ ∀ v ∈ vs, v[i]? = some true))

/-- Every point marked by `v` is marked by `u`. -/
def Included (v u : List Bool) : Prop := ∀ p : Nat, v[p]? = some true → u[p]? = some true

/-- The number of points where two vectors agree. -/
def agreements (u v : List Bool) : Nat := (List.zipWith (fun a b => a == b) u v).count true

end Verif.Spec
