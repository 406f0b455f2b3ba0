/-
Settings of an `ImagSelfEnergy` object as a user reads them off the calls made, and the values that
belong to settings.
-/
import Verif.Model.IseObject

namespace Phono3py.Spec

/-- What the last call that gives such a value gave. -/
def lastGiven {C α : Type} (f : C → Option α) (h : List C) : Option α := h.reverse.findSome? f

section
variable {P K S G Z A V : Type}

/-- Frequency points given by a call. -/
def pointsGiven : IseCall P K S Z A → Option (Option (List K))
  | .setFrequencyPoints f => some f
  | _ => none

/-- Temperature given by a call. -/
def temperatureGiven : IseCall P K S Z A → Option (Option K)
  | .setTemperature t => some t
  | _ => none

/-- Smearing width and its cutoff given by a call. -/
def sigmaGiven : IseCall P K S Z A → Option (Option K × Option K)
  | .setSigma s c => some (s, c)
  | _ => none

/-- The call sets the grid point of this object or of one with the same `Interaction` object. -/
def SetsGridPoint : IseCall P K S Z A → Prop
  | .setGridPoint _ | .otherObject _ => True
  | _ => False

/-- Interaction strengths are dropped by the call. -/
def DropsStrengths : IseCall P K S Z A → Prop
  | .setGridPoint (some _) | .setSigma _ _ | .deleteWeights => True
  | _ => False

/-- The call brings interaction strengths that are not those of all pairs of bands. -/
def BringsStrengths : IseCall P K S Z A → Prop
  | .setAveraged _ | .setStrength _ _ | .runInteraction false => True
  | _ => False

/-- Calls that change neither settings (except the temperature) nor integration weights nor supply
interaction strengths. -/
def OnlyCalculates : IseCall P K S Z A → Prop
  | .setTemperature _ | .runInteraction _ | .run => True
  | _ => False

/-- Interaction strengths left out because of the zero flags do not matter. -/
def SkippingHarmless (env : IseEnv P K S G Z A V) : Prop :=
  ∀ (p : P) (sigma cutoff : Option K) (cls : Option Nat) (t : K),
    let w := env.weights p p none sigma cutoff
    env.result p (env.strengths p (some w.2)) (iseEventClass env cls w.1) (some w.2) none t =
      env.result p (env.strengths p none) (iseEventClass env cls w.1) (some w.2) none t

/-- The self-energy with strengths `v` at grid point `p`, for one event class or both, frequency
points `f`, smearing width, its cutoff, and temperature. -/
def selfEnergyWith (env : IseEnv P K S G Z A V) (v : S) (p : P) (cls : Option Nat)
    (f : Option (List K)) (sigma cutoff : Option K) (t : K) : V :=
  let w := env.weights p p f sigma cutoff
  env.degenerate p (env.result p v (iseEventClass env cls w.1) (some w.2) f t)

/-- The self-energy from all interaction strengths. -/
def selfEnergyAt (env : IseEnv P K S G Z A V) (p : P) (cls : Option Nat) (f : Option (List K))
    (sigma cutoff : Option K) (t : K) : V :=
  selfEnergyWith env (env.strengths p none) p cls f sigma cutoff t

end
end Phono3py.Spec
