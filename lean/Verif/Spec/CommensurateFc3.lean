import Verif.Spec.AllShortest

/-!
# Wave vectors that fit into the supercell

The Fourier sum of force constants over the atoms of the supercell, for which it does not matter which
periodic image of an atom is taken.
-/

namespace Phono3py.Spec

section
variable {K : Type} [Field K] [LinearOrder K] [IsStrictOrderedRing K]

/-- The wave of wave vector `q`, in components with respect to the reciprocal basis of the primitive
cell, has the period of the supercell. -/
def Geometry.Commensurate (g : Geometry K) (q : Fin 3 → K) : Prop :=
  ∀ v ∈ g.lattice, ∃ z : Int, dot q v = z

/-- The Fourier sum of `Φ` for atoms `i`, `j`, `k` of the primitive cell and directions `x`, `y`, `z`:
over all atoms of the supercell that are translations of `j` and of `k`. -/
def fourierFc3 (expi : K → Cplx K) (g : Geometry K) (at' : AtomTriplets K)
    (Φ : Nat → Nat → Nat → Nat → Nat → Nat → K) (q0 q1 q2 : Fin 3 → K) (i j k x y z : Nat) :
    Cplx K :=
  ∑ s ∈ Finset.range at'.numSatom, ∑ u ∈ Finset.range at'.numSatom,
    if at'.s2p s = at'.p2s j ∧ at'.s2p u = at'.p2s k then
      (expi (dot q0 (g.pos (at'.p2s i).toNat) + dot q1 (g.pos s) + dot q2 (g.pos u))).scale
        (Φ (at'.p2s i).toNat s u x y z)
    else 0

end
end Phono3py.Spec
