import Verif.Model.Dataset

/-!
# Specification of displaced supercells

What a type-1 dataset means: a list of displaced supercells, first the single displacements and
then the pairs, each with its number, whether a calculation is needed, the displacement of every
atom and, if known, the forces.
-/

namespace Phono3py

/-- One displaced supercell. -/
structure Displaced (V : Type) where
  id : Nat
  included : Bool
  field : Nat → V
  forces : Option (List V)

/-- Displacement field of one displaced atom. -/
def oneAtom {V : Type} [Zero V] (n : Nat) (d : V) : Nat → V := fun k => if k = n then d else 0

/-- The displaced supercells described by a type-1 dataset, in the order of their ids. In a pair
both displacements are applied, and they add up when the atoms coincide. A pair without the key
`included` is included. -/
def displacedCells {V K : Type} [AddMonoid V] (ds : DispDataset V K) : List (Displaced V) :=
  ds.first.map (fun d1 => ⟨d1.id, true, oneAtom d1.number d1.displacement, d1.forces⟩) ++
    ds.first.flatMap (fun d1 => d1.second.map (fun d2 =>
      ⟨d2.id, d2.included.getD true,
        fun k => oneAtom d1.number d1.displacement k + oneAtom d2.number d2.displacement k,
        d2.forces⟩))

/-- The displaced supercells that directions ask for: `included` means no cutoff or a pair distance
below it. Ids count from `1`. -/
def requestedCells {D V K : Type} [AddMonoid V] [LT K] (cart : D → V) (cutoff : Option K)
    (ds : List (DirFirst D K)) : List ((Nat → V) × Prop) :=
  ds.map (fun f => (oneAtom f.number (cart f.direction), True)) ++
    ds.flatMap (fun f => f.second.flatMap (fun s => s.directions.map (fun d =>
      (fun k => oneAtom f.number (cart f.direction) k + oneAtom s.number (cart d) k,
        ∀ r, cutoff = some r → s.distance < r))))

/-- No pair displaces the same atom twice. -/
def DistinctPairs {V K : Type} (ds : DispDataset V K) : Prop :=
  ∀ d1 ∈ ds.first, ∀ d2 ∈ d1.second, d1.number ≠ d2.number

/-- The lines of a force file that hold forces. -/
def forceRows {V : Type} (file : List (ForceLine V)) : List V :=
  file.filterMap (fun l => match l with
    | .row f => some f
    | _ => none)

end Phono3py
