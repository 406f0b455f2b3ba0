import Verif.Model.CreateSupercells

/-!
# The displacements that options ask for
-/

namespace Phono3py.Spec

variable {M C D X : Type}

/-- The number of random snapshots asked for: none for zero and below, twice the estimate for `auto`. -/
def askedSnapshots (estimate : Int) : Option Snapshots → Option Int
  | none => none
  | some .auto => some (2 * estimate)
  | some (.number n) => if 0 < n then some n else none

/-- Displacements for fc3: random or pairs in the supercell, by `--rd` and `--pm`. -/
def askedFc3 (g : DispMakers M C D X) (o : DispOptions M) (distance : ℚ) (seed : Option Int) : D :=
  match askedSnapshots (g.estimate3 g.supercell o.cutoff) o.rd with
  | some n => g.random n g.supercell distance (o.pm == .yes) seed
  | none => g.pairs g.supercell o.pm o.diagonal distance o.cutoff

/-- Displacements for fc2: random or single ones in the supercell of the matrix `m`, by `--rd-fc2` and
`--pm-fc2`. -/
def askedFc2 (g : DispMakers M C D X) (o : DispOptions M) (m : M) (distance : ℚ)
    (seed : Option Int) : D :=
  match askedSnapshots (g.estimate2 (g.phononSupercell m)) o.rdFc2 with
  | some n => g.random n (g.phononSupercell m) distance (o.pmFc2 == .yes) seed
  | none => g.singles (g.phononSupercell m) o.pmFc2 false distance

/-- The seed given, if it is one of 32 bits. -/
def IsSeed (given used : Option Int) : Prop :=
  ∀ s, used = some s ↔ given = some s ∧ 0 ≤ s ∧ s < 2 ^ 32

/-- Files numbered from one in the order of the cells, without gaps. -/
def numbered (cells : List X) : List (Nat × X) := cells.zipIdx.map fun p => (p.2 + 1, p.1)

end Phono3py.Spec
