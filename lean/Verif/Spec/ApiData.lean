import Verif.Model.ApiData
import Verif.Spec.Dataset

/-!
# Specification of histories of datasets

What the displaced supercells of a dataset are, independent of caches, and what it means that
stored forces were given for the stored displacements.
-/

namespace Phono3py

/-- The displacement of every atom in every displaced supercell a dataset describes. A pair that is
not included has no supercell. A dataset without displacements describes nothing. -/
def describedFields {V K : Type} [AddMonoid V] : AnyDataset V K → Option (List (Option (Nat → V)))
  | .type1 d => some ((displacedCells d).map fun e => if e.included then some e.field else none)
  | .type2 d => d.displacements.map fun disps =>
      disps.map fun (disp : List V) => some (fun (k : Nat) => disp.getD k 0)

/-- The list of cells consists of the perfect cell moved by what the dataset describes, in order. -/
def CellsOf {V K M : Type} [AddMonoid V] (pos : Nat → V) (ds : Option (AnyDataset V K))
    (cells : List (Option (MovedCell V M))) : Prop :=
  ∃ d fields, ds = some d ∧ describedFields d = some fields ∧
    cells.map (fun c => c.map (fun c => c.positions)) =
      fields.map (fun f => f.map (fun (f : Nat → V) (k : Nat) => pos k + f k))

/-- Displacement fields of the supercells for fc2: of a type-1 dataset only the single displacements
count. -/
def describedPhononFields {V K : Type} [AddMonoid V] : AnyDataset V K → Option (List (Nat → V))
  | .type1 d => some (d.first.map fun d1 => oneAtom d1.number d1.displacement)
  | .type2 d => d.displacements.map fun disps =>
      disps.map fun (disp : List V) => (fun (k : Nat) => disp.getD k 0)

/-- The list of cells for fc2 consists of the perfect cell moved by what the dataset describes. -/
def PhononCellsOf {V K M : Type} [AddMonoid V] (pos : Nat → V) (ds : Option (AnyDataset V K))
    (cells : List (MovedCell V M)) : Prop :=
  ∃ d fields, ds = some d ∧ describedPhononFields d = some fields ∧
    cells.map (fun c => c.positions) = fields.map (fun (f : Nat → V) (k : Nat) => pos k + f k)

/-- Displacements given to the object have one row per atom of the supercell. -/
def FitsCell {V K M : Type} (e : ApiCells V) : DataOp V K M → Prop
  | .setDataset (.type2 disps _ _) => ∀ v ∈ disps, v.length = e.natom
  | .setPhononDataset (.type2 disps _ _) =>
    e.hasPhononMatrix = true ∧ ∀ v ∈ disps, v.length = e.pnatom
  | _ => True

/-- The dataset holds forces `F` and displacements `D` of all atoms. -/
def Holds {V K M : Type} (s : ApiData V K M) (F D : List (List V)) : Prop :=
  ∃ d, s.dataset = some (.type2 d) ∧ d.forces = some F ∧ d.displacements = some D

/-- The call gives the forces `F` to the object. -/
def GivesForces {V K M : Type} [AddMonoid V] (e : ApiCells V) (s : ApiData V K M)
    (op : DataOp V K M) (F : List (List V)) : Prop :=
  match op with
  | .setForces vs => vs = F
  | .setDataset (.type2 _ (some vs) _) => vs = F
  | .evaluateMlp mlp => ∃ cells, (readCells e s).2 = some cells ∧ (mlp cells).2 = F
  | _ => False

/-- A generated dataset has displacements but no forces yet. -/
def WithoutForces {V K : Type} : AnyDataset V K → Prop
  | .type1 d => ∀ d1 ∈ d.first, d1.forces = none
  | .type2 d => d.forces = none

/-- In state `s` the call does not put new displacements beside forces that are already there, and a
generator gives displacements only. -/
def KeepsPairing {V K M : Type} (s : ApiData V K M) : DataOp V K M → Prop
  | .setDisplacements _ => ∀ d, s.dataset = some (.type2 d) → d.forces = none
  | .generate (some d) _ => WithoutForces d
  | _ => True

end Phono3py
