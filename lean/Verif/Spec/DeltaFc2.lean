/- A crystal with forces of third order, least-squares fits, and what phonopy's functions are
expected to do. -/
import Verif.Model.DeltaFc2
import Verif.Spec.Fc3Solve

namespace Phono3py.Spec

open Matrix

section
variable {K : Type} [Field K]

/-- Displacement of one atom. -/
def point (a : Nat) (u : Vec K) : Nat → Vec K := fun i => if i = a then u else 0

/-- Force on atom `k` under displacements `u` of a crystal with `n` atoms, with forces `f0` at rest
and force constants of second order `p2` and third order `f`. -/
def crystalForce (n : Nat) (f0 : Nat → Vec K) (p2 : Nat → Nat → FcBlock K) (f : Legs → K)
    (u : Nat → Vec K) (k : Nat) : Vec K := fun b =>
  f0 k b - (∑ i ∈ Finset.range n, ∑ a, u i a * p2 i k a b) -
    (∑ i ∈ Finset.range n, ∑ j ∈ Finset.range n, ∑ a, ∑ c,
      u i a * u j c * f ![(i, (a : Fin 3)), (j, (c : Fin 3)), (k, b)]) / 2

/-- Change of the block `(i, j)` of fc2 when atom `first` is displaced by `u`. -/
def inducedBlock (f : Legs → K) (first : Nat) (u : Vec K) (i j : Nat) : FcBlock K := fun l m =>
  ∑ k : Fin 3, u k * f ![(first, (k : Nat)), (i, (l : Nat)), (j, (m : Nat))]

/-- A 3×3 matrix with indices in the natural numbers. -/
def natMat (M : FcBlock K) (l a : Nat) : K := M (Fin.ofNat 3 l) (Fin.ofNat 3 a)

/-- The dataset entry with the forces of its supercells. -/
def filled (n : Nat) (F : (Nat → Vec K) → Nat → Vec K) (d : Disp1 (Vec K) K) : Disp1 (Vec K) K :=
  { d with
    forces := some ((List.range n).map (F (point d.number d.displacement)))
    second := d.second.map fun e => { e with
      forces := some ((List.range n).map
        (F (point d.number d.displacement + point e.number e.displacement))) } }

/-- Displacements and forces of one second atom turned by the operations of `syms`: after turning,
the force on atom `k` is the turned force on the atom taken to `k`. -/
def turnedRows (cart : Rot → FcBlock K) (back : Rot → Nat → Nat) (disps : List (Vec K))
    (forces : List (Nat → Vec K)) (syms : List Rot) (k : Nat) : List (Vec K × Vec K) :=
  (disps.zip forces).flatMap fun p => syms.map fun r =>
    ((cart r) *ᵥ p.1, (cart r) *ᵥ (p.2 (back r k)))

/-- The vectors span space: only zero is orthogonal to all. -/
def Spanning (l : List (Vec K)) : Prop := ∀ w : Vec K, (∀ v ∈ l, v ⬝ᵥ w = 0) → w = 0

end

section
variable {K : Type} [Field K] [LinearOrder K]

/-- Sum of squares left when the forces `-v X` are compared with the forces `p.2` found for the
displacements `v = p.1`. -/
def residual (rows : List (Vec K × Vec K)) (X : FcBlock K) : K :=
  (rows.map fun p => ∑ b, ((p.1 ᵥ* X) b + p.2 b) ^ 2).sum

/-- A least-squares fit. -/
def IsFit (rows : List (Vec K × Vec K)) (X : FcBlock K) : Prop :=
  ∀ Y, residual rows X ≤ residual rows Y

/-- A finite group of rotations listed without repetition. -/
structure RotGroup (l : List Rot) : Prop where
  nodup : l.Nodup
  one : 1 ∈ l
  mul : ∀ r ∈ l, ∀ s ∈ l, r * s ∈ l
  inv : ∀ r ∈ l, ∃ s ∈ l, s * r = 1 ∧ r * s = 1

/-- The site symmetry of atom `a`: a group of rotations about the atom, of which `r` takes atom `i`
to atom `σ r i`, and which leave the force constants of the crystal invariant. -/
structure SiteSymmetry (T : FcTools K) (p2 : Nat → Nat → FcBlock K) (f : Legs → K)
    (σ : Rot → Nat → Nat) (a : Nat) : Prop where
  lt : a < T.natom
  group : RotGroup (T.siteSym a)
  acts : ∀ r ∈ T.siteSym a, ∀ x < T.natom, ∀ y < T.natom,
    (T.near (T.pos y) (T.turnAbout a r (T.pos x)) = true ↔ y = σ r x)
  map_lt : ∀ r ∈ T.siteSym a, ∀ x < T.natom, σ r x < T.natom
  map_one : ∀ x, σ 1 x = x
  map_mul : ∀ r ∈ T.siteSym a, ∀ s ∈ T.siteSym a, ∀ x, σ (r * s) x = σ r (σ s x)
  fixed : ∀ r ∈ T.siteSym a, σ r a = a
  orth : ∀ r ∈ T.siteSym a, (T.cart r)ᵀ * T.cart r = 1
  inv2 : ∀ r ∈ T.siteSym a, ∀ i < T.natom, ∀ j < T.natom,
    p2 (σ r i) (σ r j) = T.cart r * p2 i j * (T.cart r)ᵀ
  inv3 : ∀ r ∈ T.siteSym a, InvariantUnder T.natom (σ r) (natMat (T.cart r)) f

/-- What the functions of numpy and phonopy do. For the operations of a bond symmetry, turning about
the first and about the second atom is the same, so that `σ` is used for both. -/
structure ToolsSound (T : FcTools K) (σ : Nat → Rot → Nat → Nat) : Prop where
  lattice : T.latticeInv * T.lattice = 1
  tol_pos : 0 < T.tol
  tol_le : T.tol ≤ 1
  norm_neg : ∀ v, T.norm (-v) = T.norm v
  norm_pos : ∀ v, v ≠ 0 → 0 < T.norm v
  /-- the directions and their images span space -/
  directions : ∀ B, RotGroup B →
    Spanning ((T.getDisplacement B).flatMap fun d => B.map fun r =>
      turnVec r fun i => (d i : K))
  /-- no negative direction is added only if an operation inverts the direction -/
  minus : ∀ B d, T.isMinus d B = false → ∃ r ∈ B, r *ᵥ d = -d
  /-- least-squares fit for every atom `k`, if the turned displacements span space -/
  solve : ∀ a b disps forces B, disps.length = forces.length → (∀ r ∈ B, r ∈ T.siteSym a) →
    (∀ r ∈ B, σ a r b = b) → Spanning (disps.flatMap fun u => B.map fun r => T.cart r *ᵥ u) →
    ∀ k < T.natom,
    IsFit (turnedRows T.cart (T.sentByInv a) disps forces B k) (T.solveRow b disps forces B k)
  /-- rows of equivalent atoms are turned back from a row that is there -/
  distribute : ∀ a fc2 done B, (∀ r ∈ B, r ∈ T.siteSym a) →
    (∀ i < T.natom, ∃ r ∈ B, σ a r i ∈ done) →
    ∃ out, T.distribute a fc2 done B = some out ∧
      ∀ i < T.natom, ∃ r ∈ B, σ a r i ∈ done ∧ ∀ j < T.natom,
        out i j = (T.cart r)ᵀ * fc2 (σ a r i) (σ a r j) * T.cart r
  sent : ∀ a, ∀ r ∈ T.siteSym a, ∀ k < T.natom,
    T.sentByInv a r k < T.natom ∧ σ a r (T.sentByInv a r k) = k
  /-- a left inverse if the rows span space -/
  pinv : ∀ l : List (Vec K), Spanning l → ∀ k k' : Fin 3,
    ∑ p ∈ Finset.range l.length, T.pinv l k p * l.getD p 0 k' = if k = k' then 1 else 0

end

end Phono3py.Spec
