import Verif.Model.StoredGamma
import Verif.Spec.FileName

/-!
# Which file holds which piece of the data
-/

namespace Phono3py.Spec

open Phono3py

variable {F : Type}

/-- The name of a piece at the `j`-th sigma, if sigma and grid point exist. -/
def keyName (kind : List Char) (r : StoreArgs) (j : Nat) (p : Piece) : Option (List Char) :=
  r.sigmas[j]?.bind (fun s =>
    match p with
    | .all => some (pieceName kind r s none none)
    | .point i => r.gridPoints[i]?.map (fun g => pieceName kind r s (some g) none)
    | .band i b => r.gridPoints[i]?.map (fun g => pieceName kind r s (some g) (some b)))

/-- Sigmas are not negative and further apart than a millionth, the cutoff is not negative, and no
grid point is listed twice. -/
structure Separate (r : StoreArgs) : Prop where
  /-- Sigmas are not negative. -/
  sigma_nonneg : ∀ s ∈ r.sigmas, ∀ v, s = some v → 0 ≤ v
  /-- The cutoff is not negative. -/
  cutoff_nonneg : ∀ v, r.cutoff = some v → 0 ≤ v
  /-- Sigmas differ by more than a millionth. -/
  sigma_apart : ∀ (j j' : Nat) (s s' : Option ℚ), r.sigmas[j]? = some s → r.sigmas[j']? = some s' →
    WithinMillionth s s' → j = j'
  /-- Grid points are listed once. -/
  points : r.gridPoints.Nodup

/-- Whether a file with the piece is there. -/
def Present (kind : List Char) (r : StoreArgs) (d : Disk F) (j : Nat) (p : Piece) : Prop :=
  ∃ n, keyName kind r j p = some n ∧ (d n).isSome

/-- Every file that is there holds what belongs in it. -/
def Holds (kind : List Char) (r : StoreArgs) (good : Nat → Piece → F → Prop) (d : Disk F) : Prop :=
  ∀ j p n f, keyName kind r j p = some n → d n = some f → good j p f

/-- An array holds the values `truth` (by temperature, grid point, band) of one piece. -/
def Carries {K : Type} (numT numGp numBand : Nat) (p : Piece) (truth : Nat → Nat → Nat → K)
    (a : NdArr K) : Prop :=
  a.dims = p.dims numT numGp numBand ∧
    ∀ t i b idx, t < numT → i < numGp → b < numBand → p.index t i b = some idx →
      a.val idx = truth t i b

/-- What belongs in the file of a piece: the linewidths of this piece and, if computed, their two
parts. -/
def KappaGood {K : Type} (r : StoreArgs) (w : Linewidths K) (j : Nat) (p : Piece)
    (f : KappaFile K) : Prop :=
  Carries r.numT r.gridPoints.length r.numBand p (w.gamma j) f.gamma ∧
    match w.nu with
    | none => f.gammaN = none
    | some q => ∃ n u, f.gammaN = some n ∧ f.gammaU = some u ∧
        Carries r.numT r.gridPoints.length r.numBand p (q.1 j) n ∧
        Carries r.numT r.gridPoints.length r.numBand p (q.2 j) u

/-- All the data is there: for every sigma one file with everything, or for every grid point a file
or files for all bands. -/
def Covered (kind : List Char) (r : StoreArgs) (d : Disk F) : Prop :=
  ∀ j < r.sigmas.length, Present kind r d j .all ∨
    ∀ i < r.gridPoints.length, Present kind r d j (.point i) ∨
      ∀ b < r.numBand, Present kind r d j (.band i b)

/-- Two sets of linewidths agree at all sigmas, temperatures, grid points and bands. -/
def SameLinewidths {K : Type} (r : StoreArgs) (w w' : Linewidths K) : Prop :=
  ∀ j < r.sigmas.length, ∀ t < r.numT, ∀ i < r.gridPoints.length, ∀ b < r.numBand,
    w'.gamma j t i b = w.gamma j t i b ∧
      ∀ q, w.nu = some q → ∃ q', w'.nu = some q' ∧ q'.1 j t i b = q.1 j t i b ∧
        q'.2 j t i b = q.2 j t i b

/-- The directory holds files written by this calculation, run as a whole or in parts: by grid
point, with all bands or a selection of bands, and as a summary.  `w` are the linewidths for all
bands; a run with selected bands holds those of its bands. -/
inductive Written {K : Type} (r : StoreArgs) (w : Linewidths K) : Disk (KappaFile K) → Prop where
  /-- An empty directory. -/
  | empty : Written r w (fun _ => none)
  /-- A call of `write_gamma` for one grid point in a run with the bands `bands`. -/
  | gamma {d d' : Disk (KappaFile K)} (bands : List Nat) (w' : Linewidths K) (i : Nat)
      (hw : ∀ (k b : Nat), bands[k]? = some b →
        (∀ j t, w'.gamma j t i k = w.gamma j t i b) ∧
          ∀ q q', w.nu = some q → w'.nu = some q' →
            ∀ j t, q'.1 j t i k = q.1 j t i b ∧ q'.2 j t i k = q.2 j t i b)
      (hnu : w'.nu.isSome = w.nu.isSome)
      (h : Written r w d) (hd : writeGamma r bands w' i d = some d') : Written r w d'
  /-- A call of `write_kappa`, with more (or less) than one grid point. -/
  | kappa {d : Disk (KappaFile K)} (hone : r.gridPoints.length ≠ 1) (h : Written r w d) :
      Written r w (writeKappa r w d)

/-- What belongs in a collision file: the linewidths and the rows of the collision matrix of the
piece at every temperature, and the temperatures.  Grid points are counted by their position in the
arrays. -/
def ColGood {K : Type} (r : StoreArgs) (temps : List ℚ) (rowDims : List Nat) (numSlot : Nat)
    (slot : Nat → Nat) (w : Collisions K) (j : Nat) (p : Piece) (f : ColFile K) : Prop :=
  let q := match p with
    | .all => Piece.all
    | .point i => .point (slot i)
    | .band i b => .band (slot i) b
  f.temps = temps ∧ Carries r.numT numSlot r.numBand q (w.gamma j) f.gamma ∧
    f.colmat.dims = q.dims r.numT numSlot r.numBand ++ rowDims ∧
    ∀ t i b idx row, t < r.numT → i < numSlot → b < r.numBand → q.index t i b = some idx →
      List.Forall₂ (· < ·) row rowDims → f.colmat.val (idx ++ row) = w.colmat j t i b row

/-- The directory holds collision files written by this calculation, as a whole or in parts: by grid
point, with all bands or a selection of bands.  `w` is the data for all grid points and bands; a run
for one grid point may hold it at another position (`slot'`) and holds the data of its bands. -/
inductive ColWritten {K : Type} (r : StoreArgs) (temps : List ℚ) (rowDims : List Nat) (numSlot : Nat)
    (slot : Nat → Nat) (w : Collisions K) : Disk (ColFile K) → Prop where
  /-- An empty directory. -/
  | empty : ColWritten r temps rowDims numSlot slot w (fun _ => none)
  /-- A call of `write_collision` for one grid point in a run with the bands `bands`. -/
  | point {d d' : Disk (ColFile K)} (bands : List Nat) (numSlot' : Nat) (slot' : Nat → Nat)
      (w' : Collisions K) (i : Nat)
      (hw : ∀ (k b : Nat), bands[k]? = some b →
        (∀ j t, w'.gamma j t (slot' i) k = w.gamma j t (slot i) b) ∧
        ∀ j t row, w'.colmat j t (slot' i) k row = w.colmat j t (slot i) b row)
      (h : ColWritten r temps rowDims numSlot slot w d)
      (hd : writeCollision r temps rowDims numSlot' slot' bands w' (some i) d = some d') :
      ColWritten r temps rowDims numSlot slot w d'
  /-- A call of `write_collision` for everything. -/
  | all {d d' : Disk (ColFile K)} (bands : List Nat) (h : ColWritten r temps rowDims numSlot slot w d)
      (hd : writeCollision r temps rowDims numSlot slot bands w none d = some d') :
      ColWritten r temps rowDims numSlot slot w d'

/-- All the collision data is there. -/
def ColCovered (r : StoreArgs) (d : Disk F) : Prop := Covered "collision".toList r d

end Phono3py.Spec
