import Verif.Model.FileName

/-!
# When two settings count as different
-/

namespace Phono3py.Spec

open Phono3py

/-- Two optional values that a name with six decimals cannot be asked to tell apart: both absent,
or present and within one millionth of each other. -/
def WithinMillionth : Option ℚ → Option ℚ → Prop
  | none, none => True
  | some v, some w => |v - w| ≤ 1 / 1000000
  | _, _ => False

/-- The values of a setting are not negative. -/
def NonNegative (p : Setting) : Prop :=
  (∀ v, p.sigma = some v → 0 ≤ v) ∧ (∀ v, p.cutoff = some v → 0 ≤ v) ∧
    ∀ v, p.temperature = some v → 0 ≤ v

/-- Two meshes whose numbers have the same number of decimal digits, direction by direction
(in particular two meshes with all numbers below ten, or one and the same mesh). -/
def SameWidths (m n : Nat × Nat × Nat) : Prop :=
  (Nat.digits 10 m.1).length = (Nat.digits 10 n.1).length ∧
    (Nat.digits 10 m.2.1).length = (Nat.digits 10 n.2.1).length ∧
      (Nat.digits 10 m.2.2).length = (Nat.digits 10 n.2.2).length

end Phono3py.Spec
