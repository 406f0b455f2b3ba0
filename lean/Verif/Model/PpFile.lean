import Mathlib.Data.List.Basic

/-!
# The file of interaction strengths

Arrays are stored flattened in C order; the file is the set of datasets written.
-/

namespace Phono3py

/-- The datasets of a `pp-*.hdf5` file that the reader looks at. -/
structure PpFile (K : Type) where
  /-- `nonzero_pp`. -/
  nonzeroPp : Option (List K) := none
  /-- `pp_shape`. -/
  ppShape : List Nat := []
  /-- `g_zero_bits`, bytes. -/
  gZeroBits : List Nat := []
  /-- `g_zero_bits_reminder`. -/
  gZeroBitsReminder : Option (List Nat) := none
  /-- `pp`, flattened. -/
  pp : Option (List K) := none

/-- One byte from at most eight flags, the first flag in the highest bit; missing flags are zero
(`numpy.packbits` with its default bit order) (phono3py/file_IO.py:1244). -/
def packByte (l : List Int) : Nat :=
  (List.range 8).foldl (fun acc i => 2 * acc + (if l.getD i 0 = 0 then 0 else 1)) 0

/-- `numpy.packbits` of a flattened array (phono3py/file_IO.py:1244-1246). -/
def packBits : List Int → List Nat
  | [] => []
  | x :: l => packByte (x :: l.take 7) :: packBits (l.drop 7)
  termination_by l => l.length
  decreasing_by simp; omega

/-- The eight flags of a byte, highest bit first (phono3py/file_IO.py:1319). -/
def unpackByte (b : Nat) : List Int :=
  (List.range 8).map (fun i => ((b / 2 ^ (7 - i) % 2 : Nat) : Int))

/-- `numpy.unpackbits` (phono3py/file_IO.py:1319-1327). -/
def unpackBits (z : List Nat) : List Int := z.flatMap unpackByte

/-- Boolean indexing `a[x == 0]` (phono3py/file_IO.py:1240). -/
def selectZero {K : Type} : List Int → List K → List K
  | m :: ms, v :: vs => if m = 0 then v :: selectZero ms vs else selectZero ms vs
  | _, _ => []

/-- The datasets written by `write_pp_to_hdf5`, `phono3py/file_IO.py:1220-1254`, for strengths `pp`
(flattened, of shape `shape`) and the optional mask.  The triplets that may be stored too and the
arrays of the consistency check are not read back and are left out.  Boolean indexing by a mask of
another length raises (`none`). -/
def writePp {K : Type} (shape : List Nat) (pp : List K) (gZero : Option (List Int)) :
    Option (PpFile K) :=
  match gZero with
  | none => some { pp := some pp }
  | some x =>
    if x.length ≠ pp.length then none
    else
      let bytelen := x.length / 8
      let remlen := x.length % 8
      some { nonzeroPp := some (selectZero x pp)
             ppShape := shape
             gZeroBits := packBits (x.take (bytelen * 8))
             gZeroBitsReminder := if remlen ≠ 0 then some (packBits (x.drop (bytelen * 8)))
                                  else none }

/-- Assignment through a Boolean index, `a[x == 0] = v`, to an array of zeros: `none` if the
number of values differs from the number of selected entries.  (A single value would be broadcast
by numpy; with one value and a different count the model fails where numpy does not.)
(phono3py/file_IO.py:1331) -/
def scatterZero {K : Type} [Zero K] : List Int → List K → Option (List K)
  | [], [] => some []
  | [], _ :: _ => none
  | m :: ms, vs =>
    if m = 0 then
      match vs with
      | [] => none
      | v :: vs => (scatterZero ms vs).map (v :: ·)
    else (scatterZero ms vs).map (0 :: ·)

/-- `read_pp_from_hdf5`, `phono3py/file_IO.py:1311-1344`: the strengths (flattened) and the mask.
`none`: an assignment of mismatched size raises. -/
def readPp {K : Type} [Zero K] (f : PpFile K) : Option (List K × Option (List Int)) :=
  match f.nonzeroPp with
  | some nonzero =>
    let size := f.ppShape.foldl (· * ·) 1
    let bytelen := size / 8
    let remlen := match f.gZeroBitsReminder with
      | none => 0
      | some _ => size - bytelen * 8
    let bits := unpackBits f.gZeroBits
    -- `b[: bytelen * 8] = bits`
    if bits.length ≠ bytelen * 8 then none
    else
      let b := bits ++ List.replicate (size - bytelen * 8) 0
      -- `b[-remlen:] = np.unpackbits(z_rem)[:remlen]`
      let rem := (unpackBits (f.gZeroBitsReminder.getD [])).take remlen
      if remlen ≠ 0 ∧ rem.length ≠ remlen then none
      else
        let gZero := if remlen ≠ 0 then b.take (size - remlen) ++ rem else b
        (scatterZero gZero nonzero).map (fun pp => (pp, some gZero))
  | none => f.pp.map (fun pp => (pp, none))

end Phono3py
