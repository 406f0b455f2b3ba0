/-
Specification vocabulary for regular grids. Nothing here refers to the code's
algorithms: a mesh `D`, integer addresses, congruence modulo the mesh, rotations
acting on shifted addresses.
-/
import Verif.Model.Vec

namespace Phono3py.Spec

/-- All three mesh numbers are positive. -/
def PosMesh (D : V3) : Prop := 0 < D.x ∧ 0 < D.y ∧ 0 < D.z

instance (D : V3) : Decidable (PosMesh D) := by unfold PosMesh; infer_instance

/-- The address lies in the reference cell `[0,D0) x [0,D1) x [0,D2)`. -/
def InCell (D a : V3) : Prop :=
  (0 ≤ a.x ∧ a.x < D.x) ∧ (0 ≤ a.y ∧ a.y < D.y) ∧ (0 ≤ a.z ∧ a.z < D.z)

/-- `v` is a reciprocal-lattice translation of the grid: `v_i` is a multiple of `D_i`. -/
def MeshTranslation (D v : V3) : Prop := D.x ∣ v.x ∧ D.y ∣ v.y ∧ D.z ∣ v.z

instance (D v : V3) : Decidable (MeshTranslation D v) := by
  unfold MeshTranslation; infer_instance

/-- Two addresses denote the same grid point. -/
def SamePoint (D a b : V3) : Prop := MeshTranslation D (a - b)

/-- A rotation that maps grid translations to grid translations. -/
def MeshCompat (D : V3) (R : M3) : Prop :=
  ∀ v, MeshTranslation D v → MeshTranslation D (R.mulVec v)

/-- The half-grid shift is preserved: `R PS - PS` is even. -/
def ShiftCompat (PS : V3) (R : M3) : Prop :=
  2 ∣ (R.mulVec PS).x - PS.x ∧ 2 ∣ (R.mulVec PS).y - PS.y ∧ 2 ∣ (R.mulVec PS).z - PS.z

instance (PS : V3) (R : M3) : Decidable (ShiftCompat PS R) := by
  unfold ShiftCompat; infer_instance

/-- The list of matrices is a group under multiplication. -/
structure IsGroup (G : List M3) : Prop where
  one_mem : M3.one ∈ G
  mul_mem : ∀ a ∈ G, ∀ b ∈ G, a.mul b ∈ G
  inv_mem : ∀ a ∈ G, ∃ b ∈ G, b.mul a = M3.one

/-- The standing assumptions on a symmetry group of a grid. -/
structure GridGroup (G : List M3) (D PS : V3) : Prop where
  pos : PosMesh D
  grp : IsGroup G
  mesh : ∀ R ∈ G, MeshCompat D R
  shift : ∀ R ∈ G, ShiftCompat PS R

/-- The q-point of address `a` on the grid shifted by `PS/2` is carried to the q-point of
address `b` by `R`, up to a grid translation: `2 b + PS = R (2 a + PS)` modulo `2 D`. -/
def RotatesTo (D PS : V3) (R : M3) (a b : V3) : Prop :=
  MeshTranslation (V3.smul 2 D)
    (V3.smul 2 b + PS - R.mulVec (V3.smul 2 a + PS))

/-- Symmetry equivalence of addresses under a list of rotations. -/
def SymEquiv (G : List M3) (D PS a b : V3) : Prop := ∃ R ∈ G, RotatesTo D PS R a b

end Phono3py.Spec
