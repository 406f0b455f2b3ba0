import Verif.Model.MlpRun
import Verif.Spec.ApiData
import Verif.Spec.CreateSupercells

/-!
# What a run with a machine-learning potential should do
-/

namespace Phono3py.Spec

open Phono3py

/-- `polymlp.yaml` is there and holds the potential; other names that begin with it are those of
compressed files. -/
structure Saved {Pot : Type} (fs : PotFiles Pot) (p : Pot) : Prop where
  names : (fs.map Prod.fst).Nodup
  file : (polymlpName, some p) ∈ fs
  others : ∀ f ∈ fs, polymlpName <+: f.1 → pathSuffix f.1 ∈ mlpSuffixes

/-- No file has a name that begins with one of the two names. -/
def NoPotential {Pot : Type} (fs : PotFiles Pot) : Prop :=
  ∀ f ∈ fs, ¬ polymlpName <+: f.1 ∧ ¬ pmlpName <+: f.1

/-- The displacements a run with a potential is asked for: random ones if a number is given, pairs
otherwise, always with both signs, with a distance of 0.01 unless one is given. -/
def askedMlp {M C D X : Type} (g : DispMakers M C D X) (o : MlpOptions) : D :=
  match askedSnapshots (g.estimate3 g.supercell o.cutoff) o.rd with
  | some n => g.random n g.supercell (o.distance.getD (1 / 100)) true (usableSeed o.seed)
  | none => g.pairs g.supercell .yes true (o.distance.getD (1 / 100)) o.cutoff

/-- The displaced supercell as the potential gets it. -/
def cellOf {V M : Type} [AddMonoid V] (pos : Nat → V) (m : M) (x : Displaced V) :
    Option (MovedCell V M) :=
  if x.included then some ⟨fun k => pos k + x.field k, m⟩ else none

end Phono3py.Spec
