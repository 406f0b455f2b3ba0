/-
What a file of triplet contributions should hold.
-/
import Verif.Model.GammaDetail
import Verif.Spec.IseObject

namespace Phono3py.Spec
open Phono3py

section
variable {P K S G Z A V E : Type}

/-- The file for grid point `p`, smearing width `sigma`, and selected band `b` number `n` if not all bands
are selected, with contributions that belong to the width `from_`. -/
def detailFileOf (env : IseEnv P K S G Z A V) (o : GammaOptions P K S Z A) (detail : V → Nat → Nat → E)
    (from_ sigma : Option K) (p : P) (band : Option (Nat × Nat)) : DetailFile P K E :=
  { gridPoint := p
    bandIndex := band.map Prod.fst
    sigma := sigma
    sigmaCutoff := o.sigmaCutoff
    temperatures := o.temperatures
    detail := some (match band with
      | none => .all (o.temperatures.map fun t => detail (selfEnergyAt env p none none from_ o.sigmaCutoff t))
      | some b => .one (o.temperatures.map fun t i =>
          detail (selfEnergyAt env p none none from_ o.sigmaCutoff t) i b.2))
    triplets := some p
    allTriplets := if band.isNone then some p else none }

/-- The bands files are written for: all together, or one by one with their places in the list. -/
def detailBands (bands : List Nat) (allBands : Bool) : List (Option (Nat × Nat)) :=
  if allBands then [none] else bands.zipIdx.map some

end
end Phono3py.Spec
