/-
The files a user expects from `run_real_self_energy`.
-/
import Verif.Model.ShiftFiles

namespace Phono3py.Spec
open Phono3py

section
variable {K : Type} [Field K]

/-- The smearing widths asked for: those given, otherwise those of the object, otherwise 0.05. -/
inductive WidthsAsked : Option (List (Option K)) → List (Option K) → List K → Prop
  | given (l : List K) (sigmas : List (Option K)) : WidthsAsked (some (l.map some)) sigmas l
  | object (x : K) (l : List K) : WidthsAsked none ((x :: l).map some) (x :: l)
  | default : WidthsAsked none [none] [5 / 100]

/-- For every grid point and width one file with the values of all bands at all temperatures. -/
def expectedHdf5 (l : List K) (numGp numTemp : Nat) (groups : List (List Nat))
    (shift : K → Nat → Nat → Nat → K) : List (ShiftFile K) :=
  (List.range numGp).flatMap fun gp => l.map fun e => .hdf5 gp e groups.flatten
    ((List.range numTemp).map fun t => groups.flatten.map fun b => shift e t gp b)

/-- For every width, temperature, grid point and group of bands one file with the average of the group. -/
def expectedText (l : List K) (numGp numTemp : Nat) (groups : List (List Nat))
    (shift : K → Nat → Nat → Nat → K) : List (ShiftFile K) :=
  l.flatMap fun e => (List.range numTemp).flatMap fun t => (List.range numGp).flatMap fun gp =>
    groups.map fun g => .text gp e t g ((g.map fun b => shift e t gp b).sum / (g.length : K))

end
end Phono3py.Spec
