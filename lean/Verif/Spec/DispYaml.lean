/-
What a user expects of `disp_fc3.yaml`.
-/
import Verif.Model.DispYaml

namespace Phono3py.Spec
open Phono3py

section
variable {K : Type}

/-- Second atoms come in increasing order. -/
def SecondsOrdered (f : PairFirst K) : Prop := (f.seconds.map (·.number)).Pairwise (· ≤ ·)

/-- The second displacements are numbered one after another following the first ones, as phono3py does. -/
def NumberedInOrder (d : PairDataset K) : Prop :=
  (d.firsts.flatMap fun f => f.seconds.map (·.id)) =
    List.range' (d.firsts.length + 1) (d.firsts.flatMap fun f => f.seconds).length

/-- Displacements of the same pair of atoms have the same distance and the same `included`, and `included` is there for
all second atoms of a first one or for none. -/
def SamePairs (f : PairFirst K) : Prop :=
  (∀ s ∈ f.seconds, ∀ t ∈ f.seconds, s.number = t.number →
    s.distance = t.distance ∧ s.included = t.included) ∧
  ∀ s ∈ f.seconds, ∀ t ∈ f.seconds, s.included.isSome = t.included.isSome

/-- The dataset with the digits of the file and without the numbers of displacements. -/
def roundedDataset (r16 r6 : K → K) (d : PairDataset K) : ParsedDataset K :=
  { natom := d.natom
    cutoff := d.cutoff.map r6
    firsts := d.firsts.map fun f =>
      { number := f.number
        displacement := fun i => r16 (f.displacement i)
        seconds := f.seconds.map fun s =>
          { number := s.number, displacement := fun i => r16 (s.displacement i), distance := r6 s.distance,
            included := s.included } } }

end
end Phono3py.Spec
