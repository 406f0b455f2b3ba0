/-
Imaginary part of the self-energy from precomputed integration weights:
c/imag_self_energy_with_g.c. `double` is an ordered field `K`; the Bose-Einstein function
(c/funcs.c:45-47) is an arbitrary function `bose`. Local two-dimensional buffers are modelled
by functions of their indices.
-/
import Mathlib.Algebra.Order.Field.Basic
import Verif.Model.Writes
import Verif.Model.Triplet

namespace Phono3py

/-- `int64_t g_pos[4]`: three band positions and the flat position
(c/imag_self_energy_with_g.c:79). -/
structure GPos where
  b0 : Nat
  b1 : Nat
  b2 : Nat
  pos : Nat
deriving DecidableEq, Repr

/-- `ise_set_g_pos`, c/imag_self_energy_with_g.c:298-320; the list holds the filled part of
`g_pos`, the second component of the state is `jkl`. -/
def setGPos (numBand0 numBand : Nat) (gZero : Int → Bool) : List GPos :=
  ((List.range numBand0).foldl (fun st j =>
    (List.range numBand).foldl (fun st k =>
      (List.range numBand).foldl (fun (st : List GPos × Nat) l =>
        (if !gZero (st.2 : Nat) then st.1 ++ [⟨j, k, l, st.2⟩] else st.1, st.2 + 1)) st) st)
    (([], 0) : List GPos × Nat)).1

/-- `set_g_pos_frequency_point`, c/imag_self_energy_with_g.c:330-355; the state is
`(g_pos, (jkl, kl))`. -/
def setGPosFrequencyPoint (numBand0 numBand : Nat) (gZero : Int → Bool) : List GPos :=
  ((List.range numBand0).foldl (fun (st : List GPos × Nat × Nat) j =>
    (List.range numBand).foldl (fun st k =>
      (List.range numBand).foldl (fun (st : List GPos × Nat × Nat) l =>
        (if !gZero (st.2.2 : Nat) then st.1 ++ [⟨j, k, l, st.2.1⟩] else st.1,
          st.2.1 + 1, st.2.2 + 1)) st) (st.1, st.2.1, 0))
    (([], 0, 0) : List GPos × Nat × Nat)).1

section
variable {K : Type _} [Field K] [LinearOrder K] [IsStrictOrderedRing K]

/-- One entry of `set_occupations`, c/imag_self_energy_with_g.c:454-475. -/
def occupation (bose : K → K → K) (cutoff f T : K) : K := if f > cutoff then bose f T else -1

/-- Occupations of the bands of triplet member `m` (1 for `n1`, 2 for `n2`),
c/imag_self_energy_with_g.c:461-473. -/
def setOccupations (bose : K → K → K) (cutoff : K) (frequencies : Int → K) (numBand : Nat)
    (triplet : Fin 3 → Int) (m : Fin 3) (T : K) (b : Nat) : K :=
  occupation bose cutoff (frequencies (triplet m * numBand + b)) T

/-- `ise_at_g_pos[i * num_temps + j]`, c/imag_self_energy_with_g.c:246-282. -/
def iseAtGPos (numBand : Nat) (fc3NormalSquared : Int → K) (n1 n2 : Nat → K) (T : K)
    (tripletWeight : Int) (g1 g23 : Int → K) (atFrequencyPoint : Bool) (p : GPos) : K :=
  let pos3 : Nat := if atFrequencyPoint then p.pos % (numBand * numBand) else p.pos
  if n1 p.b1 < 0 ∨ n2 p.b2 < 0 then 0
  else if T > 0 then
    ((n1 p.b1 + n2 p.b2 + 1) * g1 pos3 + (n1 p.b1 - n2 p.b2) * g23 pos3) *
      fc3NormalSquared (p.pos : Nat) * tripletWeight
  else g1 pos3 * fc3NormalSquared (p.pos : Nat) * tripletWeight

/-- `ise_imag_self_energy_at_triplet`, c/imag_self_energy_with_g.c:222-296. The result is the
array `imag_self_energy`, which the function first fills with zeros. -/
def iseAtTriplet (bose : K → K → K) (numBand0 numBand : Nat) (fc3NormalSquared : Int → K)
    (frequencies : Int → K) (triplet : Fin 3 → Int) (tripletWeight : Int) (g1 g23 : Int → K)
    (gPos : List GPos) (temperatures : Nat → K) (numTemps : Nat) (cutoff : K)
    (atFrequencyPoint : Bool) : Int → K :=
  runAdds (fun _ => 0) (gPos.flatMap fun p => loop numTemps fun j =>
    [(((j * numBand0 + p.b0 : Nat) : Int),
      iseAtGPos numBand fc3NormalSquared
        (setOccupations bose cutoff frequencies numBand triplet 1 (temperatures j))
        (setOccupations bose cutoff frequencies numBand triplet 2 (temperatures j))
        (temperatures j) tripletWeight g1 g23 atFrequencyPoint p)])

/-- Pointer arithmetic `a + n` (c/imag_self_energy_with_g.c:71-156). -/
def shiftBy {α : Type _} (a : Int → α) (n : Nat) : Int → α := fun k => a (n + k)

/-- `ise_get_imag_self_energy_with_g`, c/imag_self_energy_with_g.c:71-156. -/
def iseWithG (bose : K → K → K) (numTriplets numBand0 numBand : Nat) (fc3NormalSquared : Int → K)
    (frequencies : Int → K) (triplets : Nat → Fin 3 → Int) (weights : Nat → Int) (g : Int → K)
    (gZero : Int → Bool) (temperature cutoff : K) (numFrequencyPoints : Nat)
    (frequencyPointIndex : Int) : Int → K :=
  let prod := numBand0 * numBand * numBand
  let at' : Bool := !decide (frequencyPointIndex < 0)
  let dims := if at' then numFrequencyPoints * numBand * numBand else prod
  let shift := if at' then frequencyPointIndex.toNat * numBand * numBand else 0
  let ise := fun i =>
    iseAtTriplet bose numBand0 numBand (shiftBy fc3NormalSquared (i * prod)) frequencies
      (triplets i) (weights i) (shiftBy g (i * dims + shift))
      (shiftBy g ((i + numTriplets) * dims + shift))
      (if at' then setGPosFrequencyPoint numBand0 numBand (shiftBy gZero (i * dims + shift))
        else setGPos numBand0 numBand (shiftBy gZero (i * dims)))
      (fun _ => temperature) 1 cutoff at'
  runAdds (fun _ => 0) (loop numTriplets fun i => loop numBand0 fun j =>
    [(((j : Nat) : Int), ise i ((j : Nat) : Int))])

/-- One pass of the loop of `collect_detailed_imag_self_energy` (`T > 0`,
c/imag_self_energy_with_g.c:410-426) and `collect_detailed_imag_self_energy_0K`
(c/imag_self_energy_with_g.c:437-451): the value left in `imag_self_energy[ij]`; skipped
entries are zero and are not added to the sum. -/
def detailedEntry (numBand : Nat) (fc3NormalSquared : Int → K) (n1 n2 : Nat → K) (T : K)
    (g1 g23 : Int → K) (gZero : Int → Bool) (ij : Nat) : Option K :=
  if gZero ij then none
  else if n1 (ij / numBand) < 0 ∨ n2 (ij % numBand) < 0 then none
  else if T > 0 then
    some (((n1 (ij / numBand) + n2 (ij % numBand) + 1) * g1 ij +
      (n1 (ij / numBand) - n2 (ij % numBand)) * g23 ij) * fc3NormalSquared ij)
  else some (g1 ij * fc3NormalSquared ij)

/-- `collect_detailed_imag_self_energy` and `collect_detailed_imag_self_energy_0K`,
c/imag_self_energy_with_g.c:402-452: stores to the detailed array and the returned sum. -/
def collectDetailed (numBand : Nat) (fc3NormalSquared : Int → K) (n1 n2 : Nat → K) (T : K)
    (g1 g23 : Int → K) (gZero : Int → Bool) (base : Nat) : List (Int × K) × K :=
  let entry := detailedEntry numBand fc3NormalSquared n1 n2 T g1 g23 gZero
  (loop (numBand * numBand) fun ij =>
      (((base + ij : Nat) : Int), 0) ::
        (match entry ij with | none => [] | some x => [(((base + ij : Nat) : Int), x)]),
    (List.range (numBand * numBand)).foldl (fun s ij =>
      match entry ij with | none => s | some x => s + x) 0)

/-- `detailed_imag_self_energy_at_triplet` with one temperature,
c/imag_self_energy_with_g.c:357-400: for band `j`. -/
def detailedAtTriplet (bose : K → K → K) (numBand : Nat) (fc3NormalSquared : Int → K)
    (frequencies : Int → K) (triplet : Fin 3 → Int) (g1 g23 : Int → K) (gZero : Int → Bool)
    (temperature cutoff : K) (base j : Nat) : List (Int × K) × K :=
  let adrs := j * numBand * numBand
  collectDetailed numBand (shiftBy fc3NormalSquared adrs)
    (setOccupations bose cutoff frequencies numBand triplet 1 temperature)
    (setOccupations bose cutoff frequencies numBand triplet 2 temperature) temperature
    (shiftBy g1 adrs) (shiftBy g23 adrs) (shiftBy gZero adrs) (base + adrs)

/-- Output of `ise_get_detailed_imag_self_energy_with_g` (c/imag_self_energy_with_g.c:158-220). -/
structure DetailedOut (K : Type _) where
  detailed : Int → K
  normal : Nat → K
  umklapp : Nat → K

/-- `tpl_is_N`, c/triplet.c:117-133. -/
def isNormal (triplet : Fin 3 → Int) (addresses : Int → V3) : Bool :=
  let a := addresses (triplet 0)
  let b := addresses (triplet 1)
  let c := addresses (triplet 2)
  if 0 + a.x + b.x + c.x ≠ 0 then false
  else if 0 + a.y + b.y + c.y ≠ 0 then false
  else if 0 + a.z + b.z + c.z ≠ 0 then false
  else true

/-- `ise_get_detailed_imag_self_energy_with_g`, c/imag_self_energy_with_g.c:158-220. -/
def detailedWithG (bose : K → K → K) (numTriplets numBand0 numBand : Nat)
    (fc3NormalSquared : Int → K) (frequencies : Int → K) (triplets : Nat → Fin 3 → Int)
    (weights : Nat → Int) (addresses : Int → V3) (g : Int → K) (gZero : Int → Bool)
    (temperature cutoff : K) (init : Int → K) : DetailedOut K :=
  let prod := numBand0 * numBand * numBand
  let r := fun i j => detailedAtTriplet bose numBand (shiftBy fc3NormalSquared (i * prod))
    frequencies (triplets i) (shiftBy g (i * prod)) (shiftBy g ((i + numTriplets) * prod))
    (shiftBy gZero (i * prod)) temperature cutoff (i * prod) j
  let nu := fun band => (List.range numTriplets).foldl (fun (nu : K × K) j =>
    let t := (r j band).2 * weights j
    if isNormal (triplets j) addresses then (nu.1 + t, nu.2) else (nu.1, nu.2 + t)) (0, 0)
  { detailed := runWrites init (loop numTriplets fun i => loop numBand0 fun j => (r i j).1)
    normal := fun band => (nu band).1
    umklapp := fun band => (nu band).2 }

end
end Phono3py
