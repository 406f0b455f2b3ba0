/-
Memory requirements shown before a run (phono3py/cui/triplets_info.py:48-139) and the arrays a run makes.

Simplifications. Sizes are in bytes; on the screen they are divided by 1e9 or 1e6 and rounded. An array
is its size of items and its shape. Which grid points are irreducible is in C176, numbers of triplets
are those of phono3py/phonon3/triplets.py.
-/
namespace Phono3py.MemoryShown

/-- "Piece of collision matrix at each grid point, temp and sigma",
phono3py/cui/triplets_info.py:88. -/
def shownPiece (numBand0 numIr numBand : Nat) : Nat := numBand0 * 3 * numIr * numBand * 3 * 8

/-- "Full collision matrix at each temp and sigma", phono3py/cui/triplets_info.py:93. -/
def shownFull (numIr numBand : Nat) : Nat := (numIr * numBand * 3) ^ 2 * 8

/-- "Phonons", phono3py/cui/triplets_info.py:95. -/
def shownPhonons (numGp numBand : Nat) : Nat := numGp * (numBand ^ 2 * 16 + numBand * 8 + 1)

/-- "Grid point information", phono3py/cui/triplets_info.py:97. -/
def shownGrid (numGp : Nat) : Nat := numGp * 5 * 4

/-- "Approx. Mem." of a grid point, phono3py/cui/triplets_info.py:131-134. -/
def shownTriplets (numTriplets numBand0 numBand : Nat) : Nat :=
  numTriplets * numBand0 * numBand ^ 2 * 8

/-- A numpy array: bytes of an item and shape (phono3py/phonon3/interaction.py:1037-1042). -/
structure NumpyArray where
  /-- `dtype.itemsize`. -/
  item : Nat
  /-- `shape`. -/
  shape : List Nat

/-- Settings that decide about shapes (phono3py/conductivity/direct_solution.py:385-441). -/
structure DirectShape where
  /-- Number of sigmas. -/
  numSigma : Nat
  /-- Number of temperatures. -/
  numTemp : Nat
  /-- Number of bands treated. -/
  numBand0 : Nat
  /-- Number of bands. -/
  numBand : Nat
  /-- Number of irreducible grid points. -/
  numIr : Nat
  /-- Number of points in the mesh. -/
  numMesh : Nat
  /-- `--reducible-colmat`. -/
  reducible : Bool

/-- `_collision_matrix` of a `CollisionMatrix` object, phono3py/phonon3/collision_matrix.py:107-117. -/
def pieceArray (d : DirectShape) : NumpyArray :=
  if d.reducible then ⟨8, [d.numBand0, d.numMesh, d.numBand]⟩
  else ⟨8, [d.numBand0, 3, d.numIr, d.numBand, 3]⟩

/-- `_collision_matrix` of a run at all grid points,
phono3py/conductivity/direct_solution.py:385-441. -/
def colmatArray (d : DirectShape) : NumpyArray :=
  if d.reducible then
    ⟨8, [d.numSigma, d.numTemp, d.numMesh, d.numBand0, d.numMesh, d.numBand]⟩
  else ⟨8, [d.numSigma, d.numTemp, d.numIr, d.numBand0, 3, d.numIr, d.numBand, 3]⟩

/-- `_phonon_done`, `_frequencies` and `_eigenvectors`, phono3py/phonon3/interaction.py:1035-1042. -/
def phononArrays (numGp numBand : Nat) : List NumpyArray :=
  [⟨1, [numGp]⟩, ⟨8, [numGp, numBand]⟩, ⟨16, [numGp, numBand, numBand]⟩]

/-- Addresses, `gp_map`, `bzg2grg` and `grg2bzg` of a grid, phono3py/phonon/grid.py:456-459, 1146-1152,
1175-1176. -/
def gridArrays (numGp numMesh : Nat) (dense : Bool) : List NumpyArray :=
  [⟨8, [numGp, 3]⟩, ⟨8, [if dense then numMesh + 1 else numMesh * 9 + 1]⟩, ⟨8, [numGp]⟩, ⟨8, [numMesh]⟩]

/-- `_interaction_strength`, phono3py/phonon3/interaction.py:191-193. -/
def strengthArray (numTriplets numBand0 numBand : Nat) : NumpyArray :=
  ⟨8, [numTriplets, numBand0, numBand, numBand]⟩

end Phono3py.MemoryShown
