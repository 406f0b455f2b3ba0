/-
C181: memory requirements that are shown, and memory that a run needs.
-/
import Mathlib.Algebra.Order.Ring.Nat
import Mathlib.Tactic.Ring
import Mathlib.Tactic.Linarith
import Mathlib.Tactic.Positivity
import Mathlib.Algebra.BigOperators.Group.List.Basic
import Verif.Spec.MemoryShown

namespace Phono3py.Props

open Phono3py.MemoryShown

/-- C181: the memory shown for phonons and for the interaction strengths of a grid point is that of the
arrays. -/
theorem C181_phonons (numGp numBand numBand0 numTriplets : Nat) :
    totalBytes (phononArrays numGp numBand) = shownPhonons numGp numBand ∧
      bytes (strengthArray numTriplets numBand0 numBand) =
        shownTriplets numTriplets numBand0 numBand := by
  simp only [totalBytes, phononArrays, bytes, shownPhonons, strengthArray, shownTriplets,
    List.map_cons, List.map_nil, List.sum_cons, List.sum_nil, List.prod_cons, List.prod_nil]
  constructor <;> ring

/-- C181: without the option for a reducible collision matrix, the memory shown for a piece is that of
the array at a grid point; for all bands the collision matrix needs what is shown once for every sigma
and temperature. -/
theorem C181_collision_partial (d : DirectShape) (h : d.reducible = false) :
    bytes (pieceArray d) = shownPiece d.numBand0 d.numIr d.numBand ∧
      (d.numBand0 = d.numBand →
        bytes (colmatArray d) = d.numSigma * d.numTemp * shownFull d.numIr d.numBand) := by
  simp only [bytes, pieceArray, colmatArray, h, Bool.false_eq_true, if_false, List.prod_cons,
    List.prod_nil, shownPiece, shownFull]
  constructor
  · ring
  · intro hb
    rw [hb]
    ring

/-- C181: with selected bands the collision matrix needs less than is shown. -/
theorem C181_selected_bands (d : DirectShape) (h : d.reducible = false) (hb : d.numBand0 < d.numBand)
    (hs : 0 < d.numSigma) (ht : 0 < d.numTemp) (hi : 0 < d.numIr) :
    bytes (colmatArray d) < d.numSigma * d.numTemp * shownFull d.numIr d.numBand := by
  simp only [bytes, colmatArray, h, Bool.false_eq_true, if_false, List.prod_cons, List.prod_nil,
    shownFull]
  have hB : 0 < d.numBand := by omega
  have hp : 0 < d.numSigma * d.numTemp * d.numIr ^ 2 * d.numBand * 72 := by positivity
  calc _ = (d.numSigma * d.numTemp * d.numIr ^ 2 * d.numBand * 72) * d.numBand0 := by ring
    _ < (d.numSigma * d.numTemp * d.numIr ^ 2 * d.numBand * 72) * d.numBand :=
      Nat.mul_lt_mul_of_pos_left hb hp
    _ = _ := by ring

/-- C181: with a reducible collision matrix for all bands, the memory needed and the memory shown are
as the squares of the number of points in the mesh and of three times that of irreducible points: more
is needed than is shown exactly if a point represents more than three on average. -/
theorem C181_reducible (d : DirectShape) (h : d.reducible = true) (hb : d.numBand0 = d.numBand) :
    bytes (colmatArray d) * (3 * d.numIr) ^ 2 =
        d.numSigma * d.numTemp * shownFull d.numIr d.numBand * d.numMesh ^ 2 ∧
      (0 < d.numSigma → 0 < d.numTemp → 0 < d.numBand →
        (d.numSigma * d.numTemp * shownFull d.numIr d.numBand < bytes (colmatArray d) ↔
          3 * d.numIr < d.numMesh)) := by
  simp only [bytes, colmatArray, h, if_true, List.prod_cons, List.prod_nil, shownFull, hb]
  constructor
  · ring
  · intro hs ht hB
    have hp : 0 < d.numSigma * d.numTemp * d.numBand ^ 2 * 8 := by positivity
    have e1 : d.numSigma * d.numTemp * ((d.numIr * d.numBand * 3) ^ 2 * 8) =
        (d.numSigma * d.numTemp * d.numBand ^ 2 * 8) * (3 * d.numIr) ^ 2 := by ring
    have e2 : 8 * (d.numSigma * (d.numTemp * (d.numMesh * (d.numBand * (d.numMesh *
        (d.numBand * 1)))))) = (d.numSigma * d.numTemp * d.numBand ^ 2 * 8) * d.numMesh ^ 2 := by
      ring
    rw [e1, e2, Nat.mul_lt_mul_left hp]
    exact Nat.pow_lt_pow_iff_left two_ne_zero

/-- C181: information on grid points always needs more than is shown, more than 1.6 times; with the dense
map, and as the zone has all points of the mesh, at most 2.4 times and eight bytes. -/
theorem C181_grid (numGp numMesh : Nat) (dense : Bool) :
    shownGrid numGp < totalBytes (gridArrays numGp numMesh dense) ∧
      (numMesh ≤ numGp → dense = true →
        5 * totalBytes (gridArrays numGp numMesh dense) ≤ 12 * shownGrid numGp + 40) ∧
      8 * shownGrid numGp < 5 * totalBytes (gridArrays numGp numMesh dense) := by
  simp only [totalBytes, gridArrays, bytes, shownGrid, List.map_cons, List.map_nil, List.sum_cons,
    List.sum_nil, List.prod_cons, List.prod_nil]
  cases dense <;> simp <;> omega

/-- A mesh of 19 x 19 x 19 for two atoms and 48 operations. -/
def exampleDirect : DirectShape :=
  { numSigma := 1, numTemp := 1, numBand0 := 6, numBand := 6, numIr := 220, numMesh := 6859,
    reducible := true }

example : 3 * exampleDirect.numIr < exampleDirect.numMesh ∧
    bytes (colmatArray exampleDirect) = 13549213728 ∧ shownFull 220 6 = 125452800 ∧
    bytes (colmatArray { exampleDirect with reducible := false }) = 125452800 := by decide +kernel

example : bytes (colmatArray { exampleDirect with reducible := false, numBand0 := 2 }) = 41817600 := by
  decide +kernel

end Phono3py.Props
