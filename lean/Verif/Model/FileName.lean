import Mathlib.Algebra.Order.Floor.Semiring
import Mathlib.Algebra.Order.Field.Rat
import Mathlib.Data.Rat.Floor
import Mathlib.Data.Nat.Digits.Defs

/-!
# Names of output files, joint-DOS output and the smearing-width setting

Text is a list of characters.  A floating-point number is the rational number it denotes.
-/

namespace Phono3py

/-- The decimal digit `d < 10` as a character (phono3py/file_IO.py:1713). -/
def digitChar10 (d : Nat) : Char := Char.ofNat (48 + d)

/-- `"%d" % n` for a non-negative integer: the decimal digits, most significant first.
Python's formatting itself is not part of `/repo`; this is what it does
(phono3py/file_IO.py:1713-1722). -/
def showNat (n : Nat) : List Char :=
  if n = 0 then ['0'] else (Nat.digits 10 n).reverse.map digitChar10

/-- Rounding to the nearest integer, ties to even, as the decimal formatting of a floating-point
number rounds (phono3py/file_IO.py:1738). -/
def roundEven (x : ℚ) : Int :=
  if x - ⌊x⌋ < 1 / 2 then ⌊x⌋
  else if 1 / 2 < x - ⌊x⌋ then ⌊x⌋ + 1
  else if ⌊x⌋ % 2 = 0 then ⌊x⌋ else ⌊x⌋ + 1

/-- The number of millionths printed by `"%f"` for a non-negative value
(phono3py/file_IO.py:1738). -/
def micro (v : ℚ) : Nat := (roundEven (v * 1000000)).toNat

/-- The six digits after the decimal point (phono3py/file_IO.py:1738). -/
def sixDigits (r : Nat) : List Char :=
  [digitChar10 (r / 100000 % 10), digitChar10 (r / 10000 % 10), digitChar10 (r / 1000 % 10),
    digitChar10 (r / 100 % 10), digitChar10 (r / 10 % 10), digitChar10 (r % 10)]

/-- `"%f" % val`: integer part, point, six digits; a minus sign for negative values
(phono3py/file_IO.py:1738). -/
def formatF (v : ℚ) : List Char :=
  if v < 0 then
    '-' :: (showNat (micro (-v) / 1000000) ++ '.' :: sixDigits (micro (-v) % 1000000))
  else showNat (micro v / 1000000) ++ '.' :: sixDigits (micro v % 1000000)

/-- `str.rstrip(chars)`: remove trailing characters belonging to `chars`
(phono3py/file_IO.py:1738). -/
def rstrip (chars : List Char) (s : List Char) : List Char :=
  (s.reverse.dropWhile (fun c => chars.contains c)).reverse

/-- `_del_zeros`, `phono3py/file_IO.py:1735-1737`: strip zeros, then strip any of the two
characters of the raw string `\.`. -/
def delZeros (v : ℚ) : List Char := rstrip ['\\', '.'] (rstrip ['0'] (formatF v))

/-- The parameters that a file name may depend on (`_get_filename_suffix`,
`phono3py/file_IO.py:1703-1711`). -/
structure Setting where
  /-- `mesh`, three mesh numbers. -/
  mesh : Nat × Nat × Nat
  /-- `grid_point`. -/
  gridPoint : Option Nat := none
  /-- `band_indices`. -/
  bands : Option (List Nat) := none
  /-- `sigma`. -/
  sigma : Option ℚ := none
  /-- `sigma_cutoff`. -/
  cutoff : Option ℚ := none
  /-- `temperature`. -/
  temperature : Option ℚ := none
  /-- `filename`, given by the user. -/
  name : Option (List Char) := none

/-- `phono3py/file_IO.py:1714-1718`: `"-g%d" % None` raises `TypeError`, which is caught. -/
def gridPart (g : Option Nat) : List Char :=
  match g with
  | none => []
  | some n => '-' :: 'g' :: showNat n

/-- `phono3py/file_IO.py:1719-1722`. -/
def bandPart (b : Option (List Nat)) : List Char :=
  match b with
  | none => []
  | some l => '-' :: l.flatMap (fun bi => 'b' :: showNat (bi + 1))

/-- `phono3py/file_IO.py:1723-1727`; the cutoff is written only when there is a sigma. -/
def sigmaPart (s c : Option ℚ) : List Char :=
  match s with
  | none => []
  | some v => '-' :: 's' :: delZeros v ++
    (match c with
     | none => []
     | some w => '-' :: 's' :: 'd' :: delZeros w)

/-- `phono3py/file_IO.py:1728-1729`. -/
def temperaturePart (t : Option ℚ) : List Char :=
  match t with
  | none => []
  | some v => '-' :: 't' :: delZeros v

/-- `phono3py/file_IO.py:1730-1731`. -/
def namePart (n : Option (List Char)) : List Char :=
  match n with
  | none => []
  | some s => '.' :: s

/-- `_get_filename_suffix`, `phono3py/file_IO.py:1703-1733`. -/
def filenameSuffix (p : Setting) : List Char :=
  '-' :: 'm' :: (showNat p.mesh.1 ++ showNat p.mesh.2.1 ++ showNat p.mesh.2.2) ++
    (gridPart p.gridPoint ++ (bandPart p.bands ++ (sigmaPart p.sigma p.cutoff ++
      (temperaturePart p.temperature ++ namePart p.name))))

/-- The name of an output file of some kind, e.g. `"kappa" + suffix + ".hdf5"`
(`phono3py/file_IO.py:774, 1092, 1139, 1218`). -/
def outputName (kind : List Char) (p : Setting) : List Char :=
  kind ++ filenameSuffix p ++ ".hdf5".toList

/-! ## Joint density of states -/

/-- The arguments of `write_joint_dos` other than the numbers (`phono3py/file_IO.py:503-512`). -/
structure JdosArgs where
  /-- `gp`. -/
  gridPoint : Nat
  /-- `mesh`. -/
  mesh : Nat × Nat × Nat
  /-- `sigma`. -/
  sigma : Option ℚ := none
  /-- `filename`. -/
  name : Option (List Char) := none
  /-- `is_mesh_symmetry`. -/
  meshSymmetry : Bool := true

/-- The name built by `_write_joint_dos_at_t`, `phono3py/file_IO.py:549-559`: the user's string is
added twice. -/
def jdosName (a : JdosArgs) (t : Option ℚ) : List Char :=
  "jdos".toList ++
    filenameSuffix { mesh := a.mesh, gridPoint := some a.gridPoint, sigma := a.sigma,
                     name := a.name } ++
    (match t with
     | none => []
     | some v => '-' :: 't' :: delZeros v) ++
    (if a.meshSymmetry then [] else ".nosym".toList) ++
    (match a.name with
     | none => []
     | some s => '.' :: s) ++
    ".dat".toList

/-- `write_joint_dos`, `phono3py/file_IO.py:503-536`: the files written, as pairs of name and
content.  Without temperatures the first spectrum is written; with temperatures the loop returns
in its first pass.  `none`: `jdos[0]` of an empty array (`IndexError`). -/
def writeJointDos {V : Type} (a : JdosArgs) (jdos : List V) (temperatures : Option (List ℚ)) :
    Option (List (List Char × V)) :=
  match temperatures with
  | none => jdos.head?.map (fun v => [(jdosName a none, v)])
  | some ts =>
    match jdos.zip ts with
    | [] => some []
    | (v, t) :: _ => some [(jdosName a (some t), v)]

/-- The output of `Phono3pyJointDos.run` for one grid point and one sigma,
`phono3py/api_jointdos.py:273-291` and `308-317`: after each temperature the array of spectra, in
which the later temperatures still hold what was there before (zeros, or the spectra of the
previous grid point), is handed to `write_joint_dos`.  The files are listed in the order written;
a later file of the same name replaces the earlier one. -/
def runJointDos {V : Type} (a : JdosArgs) (before spectra : List V)
    (temperatures : Option (List ℚ)) : Option (List (List Char × V)) :=
  ((List.range spectra.length).mapM (fun i =>
    writeJointDos a (spectra.take (i + 1) ++ before.drop (i + 1)) temperatures)).map List.flatten

/-! ## The smearing widths -/

/-- A Python object as far as the `sigmas` setter distinguishes it
(phono3py/api_phono3py.py:382-398). -/
inductive PyVal where
  /-- A `float` (`numpy.float64` is a subclass). -/
  | float (v : ℚ)
  /-- An `int` (`bool` included). -/
  | int (n : Int)
  /-- `None`. -/
  | none
  /-- A list, tuple or array. -/
  | list (l : List PyVal)
  /-- A number of another type, e.g. `numpy.int64` or `numpy.float32`. -/
  | other (v : ℚ)

/-- The body of the loop of the setter, `phono3py/api_phono3py.py:394-398`. -/
def sigmaEntry (s : PyVal) : List (Option ℚ) :=
  match s with
  | .float v => [some v]
  | .int n => [some (n : ℚ)]
  | .none => [Option.none]
  | _ => []

/-- `Phono3py.sigmas` setter, `phono3py/api_phono3py.py:382-398`.  `none`: iterating over a number
of another type raises `TypeError`. -/
def setSigmas (s : PyVal) : Option (List (Option ℚ)) :=
  match s with
  | .none => some [Option.none]
  | .float v => some [some v]
  | .int n => some [some (n : ℚ)]
  | .list l => some (l.flatMap sigmaEntry)
  | .other _ => Option.none

end Phono3py
