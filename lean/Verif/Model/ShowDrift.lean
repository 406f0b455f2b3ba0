import Verif.Model.Fc3
import Mathlib.Algebra.Order.AbsoluteValue.Basic

/-!
# Printed drifts of third-order force constants

`show_drift_fc3` of `phono3py/phonon3/fc3.py`.
-/

namespace Phono3py

section
variable {K : Type} [Field K] [LinearOrder K]

/-- Elements of `fc3[:, i, j, k, ll, m]`, `fc3[i, :, j, k, ll, m]` and `fc3[i, j, :, k, ll, m]`
(`phono3py/phonon3/fc3.py:587-589`). -/
def driftPos (n leg : Nat) (c : Nat × Nat × Nat × Nat × Nat) (a : Nat) : Int :=
  if leg = 0 then fc3Adr n a c.1 c.2.1 c.2.2.1 c.2.2.2.1 c.2.2.2.2
  else if leg = 1 then fc3Adr n c.1 a c.2.1 c.2.2.1 c.2.2.2.1 c.2.2.2.2
  else fc3Adr n c.1 c.2.1 a c.2.2.1 c.2.2.2.1 c.2.2.2.2

/-- `val1`, `val2` and `val3` (`phono3py/phonon3/fc3.py:587-589`, 622, 631-632). -/
def driftVal (n leg : Nat) (fc3 : Int → K) (c : Nat × Nat × Nat × Nat × Nat) : K :=
  sumLoop n fun a => fc3 (driftPos n leg c a)

/-- `np.ndindex((n0, n, 3, 3, 3))` (`phono3py/phonon3/fc3.py:586`, 621, 630). -/
def driftIndices (n0 n : Nat) : List (Nat × Nat × Nat × Nat × Nat) :=
  loop n0 fun i => loop n fun j => loop 3 fun k => loop 3 fun l => (List.range 3).map fun m =>
    (i, j, k, l, m)

/-- `if abs(val) > abs(maxval): maxval = val; klm = [k, ll, m]`
(`phono3py/phonon3/fc3.py:590-598`, 623-625, 633-638). -/
def keepLargest (best : K × Nat × Nat × Nat) (val : K) (klm : Nat × Nat × Nat) :
    K × Nat × Nat × Nat :=
  if |best.1| < |val| then (val, klm) else best

/-- One scan from `maxval = 0`, `klm = [0, 0, 0]` (`phono3py/phonon3/fc3.py:580-598`). -/
def scanDrift (idx : List (Nat × Nat × Nat × Nat × Nat)) (val : Nat × Nat × Nat × Nat × Nat → K) :
    K × Nat × Nat × Nat :=
  idx.foldl (fun best c => keepLargest best (val c) c.2.2) (0, 0, 0, 0)

/-- What is printed, by leg, and the array left behind (`phono3py/phonon3/fc3.py:647-651`). -/
structure ShownDrift (K : Type) where
  /-- Value and letters of each leg. -/
  shown : Nat → K × Nat × Nat × Nat
  /-- The array of the caller afterwards. -/
  array : Int → K

/-- `show_drift_fc3`, full arrays: `phono3py/phonon3/fc3.py:578-598`. -/
def showDriftFull (n : Nat) (fc3 : Int → K) : ShownDrift K where
  shown leg := scanDrift (driftIndices n n) (driftVal n leg fc3)
  array := fc3

/-- `show_drift_fc3`, compact arrays: `phono3py/phonon3/fc3.py:599-638`; the array is transposed in
place, scanned along its second index, and transposed back. -/
def showDriftCompact (m : CompactMaps) (fc3 : Int → K) : ShownDrift K :=
  let transposed := transposeCompactFc3 m 0 fc3
  let first := scanDrift (driftIndices m.nPatom m.nSatom) (driftVal m.nSatom 1 transposed)
  let back := transposeCompactFc3 m 0 transposed
  { shown := fun leg => if leg = 0 then first else
      scanDrift (driftIndices m.nPatom m.nSatom) (driftVal m.nSatom leg back)
    array := back }

/-- `show_drift_fc3`, `phono3py/phonon3/fc3.py:576-651`: full when the leading dimension is the number
of atoms. -/
def showDrift (m : CompactMaps) (lead : Nat) (fc3 : Int → K) : ShownDrift K :=
  if lead = m.nSatom then showDriftFull m.nSatom fc3 else showDriftCompact m fc3

end
end Phono3py
