/-
Strength of the phonon-phonon interaction: c/real_to_reciprocal.c, c/reciprocal_to_normal.c and
c/interaction.c. `double` is an ordered field `K`. `sqrt` and `expi x`, standing for
`cos(2 pi x) + i sin(2 pi x)`, are arbitrary functions. The variant of the eigenvector
contraction that calls BLAS is not modelled.
-/
import Mathlib.Algebra.Order.Field.Basic
import Verif.Model.Complex
import Verif.Model.SelfEnergy

namespace Phono3py

section
variable {K : Type _} [Field K] [LinearOrder K] [IsStrictOrderedRing K]

/-- `double q[3]` (c/interaction.c:57). -/
abbrev Q3 (K : Type _) := Fin 3 → K

/-- `AtomTriplets`, c/phonoc_array.h; `multiplicity k` is `multiplicity[k][0]` and
`multiplicity[k][1]`. -/
structure AtomTriplets (K : Type _) where
  svecs : Int → Q3 K
  multiplicity : Int → Nat × Int
  numSatom : Nat
  numPatom : Nat
  p2s : Nat → Int
  s2p : Nat → Int
  makeR0Average : Bool
  allShortest : Int → Bool

/-- `q[0] * v[0] + q[1] * v[1] + q[2] * v[2]`, the loops at c/real_to_reciprocal.c:359-364 and
c/real_to_reciprocal.c:380-383. -/
def dot3 (a b : Q3 K) : K := 0 + a 0 * b 0 + a 1 * b 1 + a 2 * b 2

/-- `get_phase_factor`, c/real_to_reciprocal.c:370-391. -/
def phaseFactor (expi : K → Cplx K) (q : Q3 K) (svecs : Int → Q3 K) (multi : Nat × Int) : Cplx K :=
  let s := sumLoop multi.1 fun i => expi (dot3 q (svecs (multi.2 + i)))
  ⟨s.re / multi.1, s.im / multi.1⟩

/-- `get_pre_phase_factor`, c/real_to_reciprocal.c:349-368. -/
def prePhaseFactor (expi : K → Cplx K) (at' : AtomTriplets K) (q : Fin 3 → Q3 K) (i : Nat) :
    Cplx K :=
  let adrs := at'.p2s i * at'.numPatom
  expi (dot3 (at'.svecs (at'.multiplicity adrs).2) fun j => q 0 j + q 1 j + q 2 j)

/-- `real_to_reciprocal_elements`, c/real_to_reciprocal.c:272-345, component `l` of the 27. -/
def r2rElement (at' : AtomTriplets K) (phase1 phase2 : Nat → Cplx K) (fc3 : Int → K)
    (isCompact : Bool) (pi0 pi1 pi2 : Nat) (leg : Nat) (l : Nat) : Cplx K :=
  let i : Int := if isCompact then pi0 else at'.p2s pi0
  let n := at'.numSatom
  (List.range n).foldl (fun s j =>
    if at'.s2p j ≠ at'.p2s pi1 then s
    else (List.range n).foldl (fun s k =>
      if at'.s2p k ≠ at'.p2s pi2 then s
      else if leg > 1 ∧ at'.allShortest (pi0 * n * n + j * n + k) = true then s
      else
        let shift : Int := i * 27 * n * n + j * 27 * n + k * 27
        let p := phase1 j * phase2 k
        if leg = 1 ∧ at'.allShortest (pi0 * n * n + j * n + k) = true then
          s + ⟨p.re * fc3 (shift + l) * 3, p.im * fc3 (shift + l) * 3⟩
        else s + ⟨p.re * fc3 (shift + l), p.im * fc3 (shift + l)⟩) s) 0

/-- `phase_factor0`, `phase_factor1`, `phase_factor2`, c/real_to_reciprocal.c:104-118: the
factor of member `m` for primitive atom `i` and supercell atom `j`. -/
def phaseTable (expi : K → Cplx K) (at' : AtomTriplets K) (q : Fin 3 → Q3 K) (m : Fin 3)
    (i j : Nat) : Cplx K :=
  phaseFactor expi (q m) at'.svecs (at'.multiplicity (j * at'.numPatom + i))

/-- Position of the stores, c/real_to_reciprocal.c:176-177. -/
def r2rPos (numBand i j k l m n : Nat) : Int :=
  ((i * 3 + l) * numBand * numBand + (j * 3 + m) * numBand + k * 3 + n : Nat)

/-- Stores of `real_to_reciprocal_legacy`, c/real_to_reciprocal.c:143-181. -/
def r2rLegacy (expi : K → Cplx K) (at' : AtomTriplets K) (q : Fin 3 → Q3 K) (fc3 : Int → K)
    (isCompact : Bool) : List (Int × Cplx K) :=
  let np := at'.numPatom
  loop (np * np * np) fun ijk =>
    let i := ijk / (np * np)
    let j := (ijk - i * np * np) / np
    let k := ijk % np
    let elem := r2rElement at' (phaseTable expi at' q 1 i) (phaseTable expi at' q 2 i) fc3
      isCompact i j k 0
    loop 3 fun l => loop 3 fun m => loop 3 fun n =>
      [(r2rPos (np * 3) i j k l m n,
        elem (l * 9 + m * 3 + n) * prePhaseFactor expi at' q i)]

/-- Updates of `real_to_reciprocal_r0_average`, c/real_to_reciprocal.c:189-270. -/
def r2rR0Average (expi : K → Cplx K) (at' : AtomTriplets K) (q : Fin 3 → Q3 K) (fc3 : Int → K)
    (isCompact : Bool) : List (Int × Cplx K) :=
  let np := at'.numPatom
  loop (np * np * np) fun ijk =>
    let i := ijk / (np * np)
    let j := (ijk - i * np * np) / np
    let k := ijk % np
    let elem1 := r2rElement at' (phaseTable expi at' q 1 i) (phaseTable expi at' q 2 i) fc3
      isCompact i j k 1
    let elem2 := r2rElement at' (phaseTable expi at' q 0 j) (phaseTable expi at' q 2 j) fc3
      isCompact j i k 2
    let elem3 := r2rElement at' (phaseTable expi at' q 1 k) (phaseTable expi at' q 0 k) fc3
      isCompact k j i 3
    (loop 3 fun l => loop 3 fun m => loop 3 fun n =>
      [(r2rPos (np * 3) i j k l m n,
        elem1 (l * 9 + m * 3 + n) * prePhaseFactor expi at' q i)]) ++
    (loop 3 fun l => loop 3 fun m => loop 3 fun n =>
      [(r2rPos (np * 3) i j k l m n,
        elem2 (m * 9 + l * 3 + n) * prePhaseFactor expi at' q j)]) ++
    (loop 3 fun l => loop 3 fun m => loop 3 fun n =>
      [(r2rPos (np * 3) i j k l m n,
        elem3 (n * 9 + m * 3 + l) * prePhaseFactor expi at' q k)])

/-- `r2r_real_to_reciprocal` on an array of zeros, c/real_to_reciprocal.c:79-141; the caller
fills the array with zeros first, c/interaction.c:203-205. The division by 3 is applied to
every place of the (infinite) array. -/
def realToReciprocal (expi : K → Cplx K) (at' : AtomTriplets K) (q : Fin 3 → Q3 K)
    (fc3 : Int → K) (isCompact : Bool) : Int → Cplx K :=
  if at'.makeR0Average then
    fun p => let c := runAdds (fun _ => 0) (r2rR0Average expi at' q fc3 isCompact) p
      ⟨c.re / 3, c.im / 3⟩
  else runWrites (fun _ => 0) (r2rLegacy expi at' q fc3 isCompact)

/-- The transposed eigenvector matrix times the inverse square root of the mass,
`e[i * num_band + j]`, c/reciprocal_to_normal.c:93-131. -/
def scaledEigenvector (sqrt : K → K) (masses : Nat → K) (eigvecs : Int → Cplx K) (numBand : Nat)
    (i j : Nat) : Cplx K :=
  (eigvecs ((j * numBand + i : Nat) : Int)).scale (1 / sqrt (masses (j / 3)))

/-- `get_fc3_sum_blas_like`, c/reciprocal_to_normal.c:275-315. -/
def fc3Sum (e0 e1 e2 : Nat → Cplx K) (fc3 : Int → Cplx K) (numBand : Nat) : K :=
  (sumLoop numBand fun i => e0 i * sumLoop (numBand * numBand) fun j =>
    fc3 ((i * numBand * numBand + j : Nat) : Int) * (e1 (j / numBand) * e2 (j % numBand))).normSq

/-- Stores of `reciprocal_to_normal_squared`, c/reciprocal_to_normal.c:74-198. -/
def r2nStores (sqrt : K → K) (gPos : List GPos) (fc3 : Int → Cplx K) (freqs : Fin 3 → Int → K)
    (eigvecs : Fin 3 → Int → Cplx K) (masses : Nat → K) (bandIndices : Nat → Nat) (numBand : Nat)
    (cutoff : K) : List (Int × K) :=
  gPos.map fun p =>
    (((p.pos : Nat) : Int),
      let f0 := freqs 0 (bandIndices p.b0 : Nat)
      let f1 := freqs 1 (p.b1 : Nat)
      let f2 := freqs 2 (p.b2 : Nat)
      if f0 > cutoff ∧ f1 > cutoff ∧ f2 > cutoff then
        fc3Sum (scaledEigenvector sqrt masses (eigvecs 0) numBand (bandIndices p.b0))
          (scaledEigenvector sqrt masses (eigvecs 1) numBand p.b1)
          (scaledEigenvector sqrt masses (eigvecs 2) numBand p.b2) fc3 numBand / (f0 * f1 * f2)
      else 0)

/-- `q_vecs`, c/interaction.c:130-146; `Q` is read row by row. -/
def qVector (a D : V3) (Q : M3) : Q3 K :=
  let q : Q3 K := ![(a.x : K) / D.x, (a.y : K) / D.y, (a.z : K) / D.z]
  ![Q.m00 * q 0 + Q.m01 * q 1 + Q.m02 * q 2, Q.m10 * q 0 + Q.m11 * q 1 + Q.m12 * q 2,
    Q.m20 * q 0 + Q.m21 * q 1 + Q.m22 * q 2]

/-- Everything about the crystal that does not change between triplets (c/interaction.c:51-62). -/
structure Crystal (K : Type _) where
  atoms : AtomTriplets K
  fc3 : Int → K
  isCompact : Bool
  masses : Nat → K
  bandIndices : Nat → Nat
  numBand : Nat
  cutoff : K

/-- Stores of `real_to_normal`, c/interaction.c:186-223. -/
def realToNormal (sqrt : K → K) (expi : K → Cplx K) (c : Crystal K) (gPos : List GPos)
    (freqs : Fin 3 → Int → K) (eigvecs : Fin 3 → Int → Cplx K) (q : Fin 3 → Q3 K) :
    List (Int × K) :=
  r2nStores sqrt gPos (realToReciprocal expi c.atoms q c.fc3 c.isCompact) freqs eigvecs c.masses
    c.bandIndices c.numBand c.cutoff

/-- `index_exchange`, c/interaction.c:49-50. -/
def indexExchange : List (Fin 3 → Fin 3) :=
  [![0, 1, 2], ![2, 0, 1], ![1, 2, 0], ![2, 1, 0], ![0, 2, 1], ![1, 0, 2]]

/-- `real_to_normal_sym_q`, c/interaction.c:225-281. `mem` is the content of the buffer
`fc3_normal_squared_ex` as returned by `malloc`; the state is `(fc3_normal_squared,
fc3_normal_squared_ex)`. -/
def realToNormalSymQ (sqrt : K → K) (expi : K → Cplx K) (c : Crystal K) (numBand0 : Nat)
    (gPos : List GPos) (freqs : Fin 3 → Int → K) (eigvecs : Fin 3 → Int → Cplx K)
    (q : Fin 3 → Q3 K) (mem : Int → K) : Int → K :=
  (indexExchange.foldl (fun (st : (Int → K) × (Int → K)) x =>
    let ex := runWrites st.2 (realToNormal sqrt expi c gPos (fun j => freqs (x j))
      (fun j => eigvecs (x j)) (fun j => q (x j)))
    let nb := c.numBand
    (runAdds st.1 (loop numBand0 fun j => loop nb fun k => loop nb fun l =>
      let band : Fin 3 → Nat := ![c.bandIndices j, k, l]
      [(((j * nb * nb + k * nb + l : Nat) : Int),
        ex ((band (x 0) * nb * nb + band (x 1) * nb + band (x 2) : Nat) : Int) / 6)]), ex))
    (fun _ => 0, mem)).1

/-- `itr_get_interaction_at_triplet`, c/interaction.c:113-184. `fc3NormalSquared` is the content
of the output array before the call. -/
def interactionAtTriplet (sqrt : K → K) (expi : K → Cplx K) (c : Crystal K) (numBand0 : Nat)
    (gPos : List GPos) (frequencies : Int → K) (eigenvectors : Int → Cplx K)
    (triplet : Fin 3 → Int) (addresses : Int → V3) (D : V3) (Q : M3) (symmetrize : Bool)
    (mem : Int → K) (fc3NormalSquared : Int → K) : Int → K :=
  let q : Fin 3 → Q3 K := fun j => qVector (addresses (triplet j)) D Q
  let freqs : Fin 3 → Int → K := fun j k => frequencies (triplet j * c.numBand + k)
  let eigvecs : Fin 3 → Int → Cplx K := fun j k =>
    eigenvectors (triplet j * c.numBand * c.numBand + k)
  if symmetrize then realToNormalSymQ sqrt expi c numBand0 gPos freqs eigvecs q mem
  else runWrites fc3NormalSquared (realToNormal sqrt expi c gPos freqs eigvecs q)

end
end Phono3py
