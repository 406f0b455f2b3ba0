/-
Strained crystals, independent of the functions of the model. Of the model only the structures
holding the input are used.
-/
import Verif.Spec.DynMat
import Verif.Model.Gruneisen

namespace Phono3py.Spec
open Finset

section
variable {K : Type} [Field K] [LinearOrder K] [IsStrictOrderedRing K]

/-- Cartesian component `b` of the vector from atom `ν` of the primitive cell to supercell atom `N`:
the mean of the equivalent shortest vectors. -/
def meanVector (c : GrunCell K) (ν N b : Nat) : K :=
  ∑ d ∈ range 3, (∑ x ∈ range (c.multi (N * c.numPatom + ν)).1,
    c.svecs ((c.multi (N * c.numPatom + ν)).2 + x) d) / ((c.multi (N * c.numPatom + ν)).1 : K) *
      c.lat d b

/-- The displacement of supercell atom `N` relative to atom `ν` under the homogeneous deformation
`1 + ε`, when in addition the atoms of kind `μ` move by `∑ relax μ a j k ε j k`. -/
def strained (c : GrunCell K) (relax : Nat → Nat → Nat → Nat → K) (ε : Nat → Nat → K)
    (ν N a : Nat) : K :=
  ∑ b ∈ range 3, ε a b * meanVector c ν N b +
    ∑ j ∈ range 3, ∑ k ∈ range 3, relax (c.p2p (c.s2p N)) a j k * ε j k

/-- The change of the second-order force constants between atom `ν` and supercell atom `P` caused by
displacements `u` of all atoms: the third-order force constants contracted with them. -/
def fc2Change (c : GrunCell K) (u : Nat → Nat → K) (ν P i j : Nat) : K :=
  ∑ M ∈ range c.numSatom, ∑ a ∈ range 3, c.fc3 (c.p2s ν) P M i j a * u M a

/-- The force on atom `ν` caused by displacements `u`. -/
def forceOn (c : GrunCell K) (u : Nat → Nat → K) (ν l : Nat) : K :=
  -∑ N ∈ range c.numSatom, ∑ a ∈ range 3, c.fc2 (fc2At c.numSatom (c.p2s ν) N l a) * u N a

/-- `e† A e`. -/
def rayleigh (n : Nat) (A : Int → Cplx K) (e : Nat → Nat → Cplx K) : Cplx K :=
  ∑ i ∈ range n, ∑ k ∈ range 3, ∑ j ∈ range n, ∑ l ∈ range 3,
    conj (e i k) * dynBlock n A i k j l * e j l

/-- `e† e = 1`. -/
def Normalised (n : Nat) (e : Nat → Nat → Cplx K) : Prop :=
  ∑ i ∈ range n, ∑ k ∈ range 3, ((e i k).re * (e i k).re + (e i k).im * (e i k).im) = 1

/-- `∑ A_kl B_kl` over Cartesian directions. -/
def contract (A B : Nat → Nat → K) : K := ∑ k ∈ range 3, ∑ l ∈ range 3, A k l * B k l

/-- `vals s` and the columns `s` of `vecs` are eigenvalues and orthonormal eigenvectors of the real
symmetric matrix `A` of size `n`. -/
structure RealEigen (n : Nat) (A : Nat → Nat → K) (vals : Nat → K) (vecs : Nat → Nat → K) : Prop where
  eigen : ∀ s < n, ∀ a < n, ∑ b ∈ range n, A a b * vecs b s = vals s * vecs a s
  orthonormal : ∀ s < n, ∀ t < n, ∑ a ∈ range n, vecs a s * vecs a t = if s = t then 1 else 0
  complete : ∀ a < n, ∀ b < n, ∑ s ∈ range n, vecs a s * vecs b s = if a = b then 1 else 0

end
end Phono3py.Spec
