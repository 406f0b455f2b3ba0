/-
`Interaction.run` and the Python implementation of the interaction strength:
phono3py/phonon3/interaction.py, phono3py/phonon3/real_to_reciprocal.py and
phono3py/phonon3/reciprocal_to_normal.py. `double` is an ordered field `K`; nested accumulations are
written as nested sums.
-/
import Verif.Model.Interaction

namespace Phono3py

section
variable {K : Type _} [Field K] [LinearOrder K] [IsStrictOrderedRing K]

/-- `self._triplet[m].astype("double") / self._mesh`,
phono3py/phonon3/real_to_reciprocal.py:118. -/
def pyQ (a D : V3) : Q3 K := ![(a.x : K) / D.x, (a.y : K) / D.y, (a.z : K) / D.z]

/-- `sum_q`, phono3py/phonon3/real_to_reciprocal.py:72-75: a component is summed when none of the
three members is zero, and is zero otherwise. -/
def pySumQ (t : Fin 3 → V3) (D : V3) : Q3 K :=
  let pick := fun (f : V3 → Int) =>
    if f (t 0) ≠ 0 ∧ f (t 1) ≠ 0 ∧ f (t 2) ≠ 0 then f (t 0) + f (t 1) + f (t 2) else 0
  ![(pick V3.x : K) / D.x, (pick V3.y : K) / D.y, (pick V3.z : K) / D.z]

/-- One factor of `_get_phase`, phono3py/phonon3/real_to_reciprocal.py:111-120. -/
def pyMean (expi : K → Cplx K) (q : Q3 K) (svecs : Int → Q3 K) (multi : Nat × Int) : Cplx K :=
  let s := sumLoop multi.1 fun i => expi (dot3 (svecs (multi.2 + i)) q)
  ⟨s.re / multi.1, s.im / multi.1⟩

/-- `_get_phase`, phono3py/phonon3/real_to_reciprocal.py:106-121. -/
def pyPhase (expi : K → Cplx K) (at' : AtomTriplets K) (q : Fin 3 → Q3 K) (j k p0 : Nat) : Cplx K :=
  1 * pyMean expi (q 1) at'.svecs (at'.multiplicity (j * at'.numPatom + p0)) *
    pyMean expi (q 2) at'.svecs (at'.multiplicity (k * at'.numPatom + p0))

/-- `_real_to_reciprocal_elements`, phono3py/phonon3/real_to_reciprocal.py:86-100, component
`x`, `y`, `z`. -/
def pyElement (expi : K → Cplx K) (at' : AtomTriplets K) (q : Fin 3 → Q3 K) (fc3 : Int → K)
    (p0 p1 p2 x y z : Nat) : Cplx K :=
  let i := at'.p2s p0
  let n := at'.numSatom
  (List.range n).foldl (fun s j =>
    if at'.s2p j ≠ at'.p2s p1 then s
    else (List.range n).foldl (fun s k =>
      if at'.s2p k ≠ at'.p2s p2 then s
      else
        let phase := pyPhase expi at' q j k p0
        let f := fc3 (i * 27 * n * n + j * 27 * n + k * 27 + (x * 9 + y * 3 + z : Nat))
        s + ⟨f * phase.re, f * phase.im⟩) s) 0

/-- Entry of `self._fc3_reciprocal` after `_real_to_reciprocal`,
phono3py/phonon3/real_to_reciprocal.py:70-84, with `_get_prephase` (102-104). -/
def pyReciprocal (expi : K → Cplx K) (at' : AtomTriplets K) (positions : Nat → Q3 K)
    (t : Fin 3 → V3) (D : V3) (fc3 : Int → K) (i j k x y z : Nat) : Cplx K :=
  pyElement expi at' (fun m => pyQ (t m) D) fc3 i j k x y z *
    expi (dot3 (pySumQ t D) (positions i))

/-- `_sum_in_atoms`, phono3py/phonon3/reciprocal_to_normal.py:90-108. -/
def pySumInAtoms (sqrt : K → K) (numPatom : Nat) (masses : Nat → K) (e0 e1 e2 : Nat → Cplx K)
    (fc3 : Nat → Nat → Nat → Nat → Nat → Nat → Cplx K) : Cplx K :=
  sumLoop numPatom fun i => sumLoop numPatom fun j => sumLoop numPatom fun k =>
    (sumLoop 3 fun l => sumLoop 3 fun m => sumLoop 3 fun n =>
      e0 (i * 3 + l) * e1 (j * 3 + m) * e2 (k * 3 + n) * fc3 i j k l m n).scale
        (1 / sqrt (masses i * masses j * masses k))

/-- One element of `np.abs(r2n.get_reciprocal_to_normal()) ** 2`,
phono3py/phonon3/interaction.py:1010-1012 and `_reciprocal_to_normal`,
phono3py/phonon3/reciprocal_to_normal.py:78-88. -/
def pyStrength (sqrt : K → K) (expi : K → Cplx K) (c : Crystal K) (positions : Nat → Q3 K)
    (frequencies : Int → K) (eigenvectors : Int → Cplx K) (triplet : Fin 3 → Int)
    (addresses : Int → V3) (D : V3) (i j k : Nat) : K :=
  let numBand := c.atoms.numPatom * 3
  let b : Fin 3 → Nat := ![c.bandIndices i, j, k]
  let f : Fin 3 → K := fun m => frequencies (triplet m * numBand + (b m : Nat))
  let e : Fin 3 → Nat → Cplx K := fun m a =>
    eigenvectors (triplet m * numBand * numBand + (a * numBand + b m : Nat))
  if f 0 > c.cutoff ∧ f 1 > c.cutoff ∧ f 2 > c.cutoff then
    ((pySumInAtoms sqrt c.atoms.numPatom c.masses (e 0) (e 1) (e 2)
      (pyReciprocal expi c.atoms positions (fun m => addresses (triplet m)) D c.fc3)).scale
        (1 / sqrt (f 0 * f 1 * f 2))).normSq
  else 0

/-- Attributes of the `Interaction` object that `run` reads, phono3py/phonon3/interaction.py:92-178.
`rows` is the first dimension of the array of force constants; `mem` is the content of a buffer of
the C code as returned by `malloc`. -/
structure InteractionObject (K : Type _) where
  sqrt : K → K
  expi : K → Cplx K
  crystal : Crystal K
  positions : Nat → Q3 K
  rows : Int
  numBand0 : Nat
  frequencies : Int → K
  eigenvectors : Int → Cplx K
  addresses : Int → V3
  D : V3
  Q : M3
  symmetrize : Bool
  unit : K
  constant : Option K
  mem : Int → K

/-- The argument `lang` (phono3py/phonon3/interaction.py:182). -/
inductive Lang
  | c
  | python
deriving DecidableEq

/-- What `run` assigns: `_interaction_strength`, one array per triplet, and `_g_zero`
(phono3py/phonon3/interaction.py:181-204). -/
structure InteractionResult (K : Type _) where
  strength : Nat → Int → K
  gZero : Option (Nat → Int → Bool)

/-- `_run_c`, phono3py/phonon3/interaction.py:932-975. -/
def interactionRunC (o : InteractionObject K) (triplets : Nat → Fin 3 → Int)
    (gZero : Option (Nat → Int → Bool)) : InteractionResult K where
  strength := fun i p =>
    let flags : Int → Bool := match gZero with
      | none => fun _ => false
      | some g => if o.symmetrize then fun _ => false else g i
    interactionAtTriplet o.sqrt o.expi o.crystal o.numBand0
      (setGPos o.numBand0 o.crystal.numBand flags) o.frequencies o.eigenvectors (triplets i)
      o.addresses o.D o.Q o.symmetrize o.mem (fun _ => 0) p * o.unit
  gZero := gZero

/-- `_run_py`, phono3py/phonon3/interaction.py:992-1013; phonons are at hand. `none` is the
`IndexError` of `self._fc3[i, j, k]`: the innermost statement is reached for every atom `i`,
because `s2p_map` maps `p2s_map[j]` to itself. `_g_zero` is not assigned. -/
def interactionRunPy (o : InteractionObject K) (triplets : Nat → Fin 3 → Int)
    (numTriplets : Nat) (before : Option (Nat → Int → Bool)) : Option (InteractionResult K) :=
  if 0 < numTriplets ∧
      ((List.range o.crystal.atoms.numPatom).any fun i => decide (o.rows ≤ o.crystal.atoms.p2s i)) = true
  then none
  else
    let nb := o.crystal.atoms.numPatom * 3
    some
      { strength := fun i => runWrites (fun _ => 0) (loop o.numBand0 fun x => loop nb fun y =>
          loop nb fun z => [(((x * nb * nb + y * nb + z : Nat) : Int),
            pyStrength o.sqrt o.expi o.crystal o.positions o.frequencies o.eigenvectors (triplets i)
              o.addresses o.D x y z * o.unit)])
        gZero := before }

/-- `Interaction.run`, phono3py/phonon3/interaction.py:181-204, when all phonons are there.
`before` is `_g_zero` at the time of the call. -/
def interactionRun (o : InteractionObject K) (lang : Lang) (triplets : Nat → Fin 3 → Int)
    (numTriplets : Nat) (gZero before : Option (Nat → Int → Bool)) :
    Option (InteractionResult K) :=
  match o.constant with
  | none =>
    match lang with
    | .c => some (interactionRunC o triplets gZero)
    | .python => interactionRunPy o triplets numTriplets before
  | some x => some ⟨fun _ _ => x / ((o.D.x * o.D.y * o.D.z : Int) : K), before⟩

end
end Phono3py
