import Verif.Model.ApiPhonon

/-!
# Specification: a calculation uses the current settings

What a user expects of a calculation: it uses the force constants, band indices, masses, parameters,
grid and smearing widths that the object shows at that moment, with the scale factor given when the
interaction was initialised.
-/

namespace Phono3py

section
variable {V K M F2 F3 B G N S W : Type}

/-- Everything a calculation used is what the object shows. -/
structure UsesCurrent (e : ApiEnv V F3 G S) (s : Api V K M F2 F3 B G N S W)
    (u : Used M F2 F3 B G N S W) : Prop where
  fc3 : u.fc3 = s.fc3Value.map (fun v => match u.scale with
    | none => v
    | some x => e.scaleFc3 x v)
  bands : u.bands = s.bands
  labels : u.labels = s.bands
  grid : s.grid = some u.grid
  masses : u.masses = s.data.masses
  sigmas : u.sigmas = s.sigmas
  phonons : ∃ v, s.fc2Value = some v ∧ ∀ gp < e.points u.grid,
    u.phonons gp = some ⟨v, s.data.masses, s.nac, u.scale⟩

/-- Calls after the initialisation that leave the force constants, masses and band indices as they
are: everything about datasets, smearing widths, the non-analytical correction, the mesh, solving
phonons and other calculations. Changing fc3 in place counts when the interaction holds the same
array. -/
def Harmless (shared : Bool) : ApiOp V K M F2 F3 B G N S W → Prop
  | .data (.setMasses _) => False
  | .data _ => True
  | .setNac _ | .setSigmas _ | .setMesh _ | .solve _ | .run => True
  | .changeFc3 _ => shared = true
  | _ => False

end
end Phono3py
