import Verif.Spec.DynMat
import Verif.Spec.BZGrid

/-!
# Symmetry operations of a crystal with force constants

What it means that an operation of the space group maps a crystal, its force constants and shortest
vectors, and its Born charges and dielectric tensor to themselves.
-/

namespace Phono3py.Spec

open Finset

section
variable {K : Type} [Field K] [LinearOrder K] [IsStrictOrderedRing K]

/-- `Wᵀ q`: the wave vector, in components with respect to the reciprocal basis, after the inverse
of the operation with matrix `W` on positions. -/
def turnedQ (W : Nat → Nat → K) (q : Nat → K) : Nat → K := fun d => ∑ e ∈ range 3, W e d * q e

/-- `f` maps `0, …, n-1` one to one onto itself. -/
def PermutesBelow (n : Nat) (f : Nat → Nat) : Prop :=
  (∀ i < n, f i < n) ∧ ∀ i < n, ∀ j < n, f i = f j → i = j

/-- The operation with matrix `W` in crystal coordinates and orthogonal matrix `R` in Cartesian
coordinates, which takes atom `i` of the primitive cell to a translation of atom `g i`, is a symmetry
of masses and force constants: for each atom `i` there is a one-to-one map `σ` of the supercell, the
operation followed by a translation, such that the force constants between `g i` and `σ s` are those
between `i` and `s`, turned by `R`, and the shortest vectors from `g i` to `σ s` are those from `i`
to `s`, turned by `W`, in some order. -/
structure IsSymmetry (c : Fc2Cell K) (W R : Nat → Nat → K) (g : Nat → Nat) : Prop where
  orthogonal : ∀ a < 3, ∀ b < 3, ∑ k ∈ range 3, R k a * R k b = if a = b then 1 else 0
  atoms : PermutesBelow c.numPatom g
  mass : ∀ i < c.numPatom, c.mass (g i) = c.mass i
  supercell : ∀ i < c.numPatom, ∃ σ : Nat → Nat, PermutesBelow c.numSatom σ ∧
    (∀ s < c.numSatom, ∀ j < c.numPatom, c.s2p (σ s) = c.p2s (g j) ↔ c.s2p s = c.p2s j) ∧
    (∀ s < c.numSatom, ∀ a < 3, ∀ b < 3, c.fc2 (fc2At c.numSatom (c.p2s (g i)) (σ s) a b) =
      ∑ k ∈ range 3, ∑ l ∈ range 3, R a k * R b l * c.fc2 (fc2At c.numSatom (c.p2s i) s k l)) ∧
    (∀ s < c.numSatom, (c.multi (σ s * c.numPatom + g i)).1 = (c.multi (s * c.numPatom + i)).1 ∧
      ∃ π : Nat → Nat, PermutesBelow (c.multi (s * c.numPatom + i)).1 π ∧
        ∀ x < (c.multi (s * c.numPatom + i)).1, ∀ d < 3,
          c.svecs ((c.multi (σ s * c.numPatom + g i)).2 + π x) d =
            ∑ e ∈ range 3, W d e * c.svecs ((c.multi (s * c.numPatom + i)).2 + x) e)

/-- The operation leaves Born effective charges and the dielectric tensor as they are, and `recip`
turns components of wave vectors into Cartesian ones, consistently with `W` and `R`. -/
structure IsNacSymmetry (c : Fc2Cell K) (p : NacParams K) (recip W R : Nat → Nat → K)
    (g : Nat → Nat) : Prop where
  charges : ∀ i < c.numPatom, ∀ a < 3, ∀ b < 3, p.born (g i) a b =
    ∑ k ∈ range 3, ∑ l ∈ range 3, R a k * R b l * p.born i k l
  dielectric : ∀ a < 3, ∀ b < 3, p.dielectric a b =
    ∑ k ∈ range 3, ∑ l ∈ range 3, R a k * R b l * p.dielectric k l
  basis : ∀ a < 3, ∀ d < 3, ∑ e ∈ range 3, recip a e * W d e = ∑ e ∈ range 3, R e a * recip e d

/-- The complete phonons of one wave vector: `v` holds, in its columns, an orthonormal set of
eigenvectors of the matrix `a`, and `lam` of the frequency is the eigenvalue. -/
structure Modes (n : Nat) (lam : K → K) (a : Int → Cplx K) (f : Nat → K) (v : Int → Cplx K) :
    Prop where
  solves : ∀ b < 3 * n, EigenPair n a (lam (f b)) fun j l => v (((j * 3 + l) * (3 * n) + b : Nat))
  orthonormal : ∀ b < 3 * n, ∀ b' < 3 * n,
    ∑ j ∈ range n, ∑ l ∈ range 3, conj (v (((j * 3 + l) * (3 * n) + b : Nat))) *
      v (((j * 3 + l) * (3 * n) + b' : Nat)) = if b = b' then 1 else 0

end

section
variable {K : Type _} [Field K] [LinearOrder K]

/-- No translate of a grid point is longer than the shortest ones by less than twice the tolerance of
the search: rounding cannot put a translate inside or outside of the Brillouin zone. -/
def SurfaceSeparated (b : BZInput K) : Prop :=
  ∀ t u, SamePoint b.D u t → (∀ w, SamePoint b.D w t → qNorm b t ≤ qNorm b w) →
    qNorm b t < qNorm b u → qNorm b t + 2 * tolerance b ≤ qNorm b u

end
end Phono3py.Spec
