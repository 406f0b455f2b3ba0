import Verif.Model.Complex
import Verif.Model.Writes
import Mathlib.Algebra.Order.Field.Basic

/-!
# Dynamical matrices

Model of the dynamical matrix in `c/dynmat.c` and of its use in `c/phonon.c`.  `double` is an ordered
field `K`; `sqrt`, `exp` and `expi x`, standing for `cos(2 pi x) + i sin(2 pi x)`, are arbitrary
functions.  A matrix is a flat array of complex numbers.  A vector `double[3]` is a function read at
`0`, `1`, `2`.
-/

namespace Phono3py

section
variable {K : Type} [Field K]

/-- The arguments describing crystal and force constants (`c/dynmat.c:226-231`): `fc2` is the flat
array of force constants (`fc`), `multi k` is `multi[k][0]` and `multi[k][1]`. -/
structure Fc2Cell (K : Type) where
  /-- Number of atoms in the primitive cell. -/
  numPatom : Nat
  /-- Number of atoms in the supercell. -/
  numSatom : Nat
  /-- Force constants, flat. -/
  fc2 : Int → K
  /-- Shortest vectors. -/
  svecs : Int → Nat → K
  /-- Number and first position of the shortest vectors of a pair. -/
  multi : Int → Nat × Int
  /-- Masses. -/
  mass : Nat → K
  /-- `p2s_map`. -/
  p2s : Nat → Int
  /-- `s2p_map`. -/
  s2p : Nat → Int

/-- `cos_phase`, `sin_phase` of `get_dm`, `c/dynmat.c:517-531`. -/
def pairPhase (expi : K → Cplx K) (c : Fc2Cell K) (q : Nat → K) (i k : Nat) : Cplx K :=
  let m := c.multi (k * c.numPatom + i)
  sumLoop m.1 fun l =>
    let e := expi (sumLoop 3 fun d => q d * c.svecs (m.2 + l) d)
    ⟨e.re / m.1, e.im / m.1⟩

/-- `fc_elem` of `get_dm`, `c/dynmat.c:535-540`; `charge` is `charge_sum`, `none` for `NULL`. -/
def fcElem (c : Fc2Cell K) (charge : Option (Nat → Nat → Nat → K)) (i j k l m : Nat) : K :=
  match charge with
  | none => c.fc2 (c.p2s i * c.numSatom * 9 + k * 9 + l * 3 + m)
  | some cs => c.fc2 (c.p2s i * c.numSatom * 9 + k * 9 + l * 3 + m) + cs (i * c.numPatom + j) l m

/-- `dm[l][m]` at the end of the loop over supercell atoms, `c/dynmat.c:484-498` with `get_dm`,
`c/dynmat.c:509-545`. -/
def dmElem (expi : K → Cplx K) (c : Fc2Cell K) (charge : Option (Nat → Nat → Nat → K))
    (q : Nat → K) (i j l m : Nat) : Cplx K :=
  (List.range c.numSatom).foldl (fun s k =>
    if c.s2p k ≠ c.p2s j then s
    else
      let p := pairPhase expi c q i k
      let f := fcElem c charge i j k l m
      s + ⟨f * p.re, f * p.im⟩) 0

/-- `get_dynmat_ij`, `c/dynmat.c:471-507`: the stores. -/
def dynmatIj (sqrt : K → K) (expi : K → Cplx K) (c : Fc2Cell K)
    (charge : Option (Nat → Nat → Nat → K)) (q : Nat → K) (i j : Nat) : List (Int × Cplx K) :=
  let massSqrt := sqrt (c.mass i * c.mass j)
  loop 3 fun k => loop 3 fun l =>
    let d := dmElem expi c charge q i j k l
    [(((i * 3 + k) * c.numPatom * 3 + j * 3 + l : Nat), ⟨d.re / massSqrt, d.im / massSqrt⟩)]

/-- The body of the loops of `make_Hermitian`, `c/dynmat.c:664-677`.  Every read of the two entries
precedes the store to the transposed entry. -/
def hermStep (n : Nat) (a : Int → Cplx K) (i j : Nat) : Int → Cplx K :=
  let x := a (i * n + j : Nat)
  let xT := a (j * n + i : Nat)
  let v : Cplx K := ⟨(x.re + xT.re) / 2, (x.im - xT.im) / 2⟩
  upd (upd a (i * n + j : Nat) v) (j * n + i : Nat) ⟨v.re, -v.im⟩

/-- `make_Hermitian`, `c/dynmat.c:661-679`. -/
def makeHermitian (n : Nat) (a : Int → Cplx K) : Int → Cplx K :=
  (List.range n).foldl (fun a i =>
    (List.range' i (n - i)).foldl (fun a j => hermStep n a i j) a) a

/-- `dym_get_dynamical_matrix_at_q`, `c/dynmat.c:226-257`, on memory `mem`.  With OpenMP the same
stores are made in another order. -/
def dynamicalMatrixAtQ (sqrt : K → K) (expi : K → Cplx K) (c : Fc2Cell K)
    (charge : Option (Nat → Nat → Nat → K)) (q : Nat → K) (mem : Int → Cplx K) : Int → Cplx K :=
  makeHermitian (c.numPatom * 3) (runWrites mem
    (loop c.numPatom fun i => loop c.numPatom fun j => dynmatIj sqrt expi c charge q i j))

/-! ### The method of Wang -/

/-- `q_born[i][j]` of `dym_get_charge_sum`, `c/dynmat.c:409-415`. -/
def qBorn (q : Nat → K) (born : Nat → Nat → Nat → K) (i j : Nat) : K :=
  sumLoop 3 fun k => q k * born i k j

/-- `dym_get_charge_sum`, `c/dynmat.c:396-431`: entry `charge_sum[p][a][b]`, `p < num_patom²`. -/
def chargeSum (numPatom : Nat) (factor : K) (q : Nat → K) (born : Nat → Nat → Nat → K)
    (p a b : Nat) : K :=
  qBorn q born (p / numPatom) a * qBorn q born (p % numPatom) b * factor

/-- `q_cart`, the loops at `c/phonon.c:329-334, 339-344, 415-420, 423-428`. -/
def qCart (recip : Nat → Nat → K) (q : Nat → K) (i : Nat) : K := sumLoop 3 fun j => recip i j * q j

/-- What the calculation knows of the charges: `born`, `dielectric`, `nac_factor`
(c/dynmat.h:44-46). -/
structure NacParams (K : Type) where
  /-- Born effective charges. -/
  born : Nat → Nat → Nat → K
  /-- Dielectric constant. -/
  dielectric : Nat → Nat → K
  /-- `nac_factor`. -/
  factor : K

/-- `get_charge_sum`, `c/phonon.c:404-443`. -/
def wangChargeSum (c : Fc2Cell K) (p : NacParams K) (recip : Nat → Nat → K) (q : Nat → K)
    (dir : Option (Nat → K)) : Nat → Nat → Nat → K :=
  let qc := match dir with
    | some d => qCart recip d
    | none => qCart recip q
  let inv := sumLoop 3 fun i => (sumLoop 3 fun j => p.dielectric i j * qc j) * qc i
  chargeSum c.numPatom (p.factor / inv / c.numSatom * c.numPatom) qc p.born

/-- `get_dynamical_matrix`, `c/phonon.c:375-402`; `nac` is `is_nac` with the charges. -/
def wangMatrix (sqrt : K → K) (expi : K → Cplx K) (c : Fc2Cell K) (nac : Option (NacParams K))
    (recip : Nat → Nat → K) (q : Nat → K) (dir : Option (Nat → K)) (mem : Int → Cplx K) :
    Int → Cplx K :=
  dynamicalMatrixAtQ sqrt expi c (nac.map fun p => wangChargeSum c p recip q dir) q mem

/-! ### The method of Gonze and Lee -/

/-- `get_dielectric_part`, `c/dynmat.c:547-559`. -/
def dielectricPart (q : Nat → K) (eps : Nat → Nat → K) : K :=
  (List.range 3).foldl (fun s i => (List.range 3).foldl (fun s j => s + q i * eps i j * q j) s) 0

/-- `KK[g][i][j]`, `c/dynmat.c:584-618`; `big` is `G_list[g]`. -/
def kk [LinearOrder K] (sqrt exp : K → K) (eps : Nat → Nat → K) (lambda tolerance : K)
    (q : Nat → K) (dir : Option (Nat → K)) (big : Nat → K) (i j : Nat) : K :=
  let qK : Nat → K := fun d => big d + q d
  let norm := sumLoop 3 fun d => qK d * qK d
  if sqrt norm < tolerance then
    match dir with
    | none => 0
    | some d => d i * d j / dielectricPart d eps
  else
    let part := dielectricPart qK eps
    qK i * qK j / part * exp (-part / (4 * lambda * lambda))

/-- The reciprocal-lattice points and positions of the dipole-dipole sum (c/dynmat.h:68-72). -/
structure DipoleSum (K : Type) where
  /-- `num_G`. -/
  numG : Nat
  /-- `G_list`. -/
  bigG : Nat → Nat → K
  /-- `pos`. -/
  pos : Nat → Nat → K
  /-- `lambda`. -/
  lambda : K
  /-- `tolerance`. -/
  tolerance : K

/-- The address of block `(i, j)`, element `(k, l)`: `i * num_patom * 9 + k * num_patom * 3 + j * 3 +
l`, e.g. `c/dynmat.c:654`. -/
def ddAdrs (np i k j l : Nat) : Nat := i * np * 9 + k * np * 3 + j * 3 + l

/-- `get_dd_at_g`, `c/dynmat.c:634-659`: the additions. -/
def ddAtG (expi : K → Cplx K) (np : Nat) (s : DipoleSum K) (kkg : Nat → Nat → K) (g i j : Nat) :
    List (Int × Cplx K) :=
  let e := expi (sumLoop 3 fun d => (s.pos i d - s.pos j d) * s.bigG g d)
  loop 3 fun k => loop 3 fun l =>
    [((ddAdrs np i k j l : Nat), ⟨kkg k l * e.re, kkg k l * e.im⟩)]

/-- `get_dd` on an array of zeros, `c/dynmat.c:561-632`. -/
def getDd [LinearOrder K] (sqrt exp : K → K) (expi : K → Cplx K) (np : Nat) (s : DipoleSum K)
    (eps : Nat → Nat → K) (q : Nat → K) (dir : Option (Nat → K)) : Int → Cplx K :=
  runAdds (fun _ => 0) (loop s.numG fun g => loop np fun i => loop np fun j =>
    ddAtG expi np s (kk sqrt exp eps s.lambda s.tolerance q dir (s.bigG g)) g i j)

/-- `multiply_borns` on an array of zeros, `c/dynmat.c:681-723`. -/
def multiplyBorns (np : Nat) (born : Nat → Nat → Nat → K) (ddIn : Int → Cplx K) : Int → Cplx K :=
  runAdds (fun _ => 0) (loop np fun i => loop np fun j => loop 3 fun k => loop 3 fun l =>
    loop 3 fun m => loop 3 fun n =>
      let zz := born i m k * born j n l
      let x := ddIn (ddAdrs np i m j n : Nat)
      [((ddAdrs np i k j l : Nat), ⟨x.re * zz, x.im * zz⟩)])

/-- The body of the symmetrizing loops of `dym_get_recip_dipole_dipole_q0`, `c/dynmat.c:374-384`. -/
def q0Step (a : Int → Cplx K) (i k l : Nat) : Int → Cplx K :=
  let x := a (i * 9 + k * 3 + l : Nat)
  let xT := a (i * 9 + l * 3 + k : Nat)
  let v : Cplx K := ⟨(x.re + xT.re) / 2, (x.im - xT.im) / 2⟩
  upd (upd a (i * 9 + k * 3 + l : Nat) v) (i * 9 + l * 3 + k : Nat) ⟨v.re, -v.im⟩

/-- `dd_q0` before it is symmetrized, `c/dynmat.c:334-356`. -/
def dipoleQ0Sum [LinearOrder K] (sqrt exp : K → K) (expi : K → Cplx K) (np : Nat)
    (s : DipoleSum K) (p : NacParams K) : Int → Cplx K :=
  let dd := multiplyBorns np p.born (getDd sqrt exp expi np s p.dielectric (fun _ => 0) none)
  runAdds (fun _ => 0) (loop np fun i => loop 3 fun k => loop 3 fun l => loop np fun j =>
    [((i * 9 + k * 3 + l : Nat), dd (ddAdrs np i k j l : Nat))])

/-- `dym_get_recip_dipole_dipole_q0`, `c/dynmat.c:310-394`. -/
def dipoleQ0 [LinearOrder K] (sqrt exp : K → K) (expi : K → Cplx K) (np : Nat)
    (s : DipoleSum K) (p : NacParams K) : Int → Cplx K :=
  (List.range np).foldl (fun a i => (List.range 3).foldl (fun a k =>
    (List.range 3).foldl (fun a l => q0Step a i k l) a) a) (dipoleQ0Sum sqrt exp expi np s p)

/-- `dym_get_recip_dipole_dipole`, `c/dynmat.c:259-308`; every entry is multiplied in place once. -/
def dipoleDipole [LinearOrder K] (sqrt exp : K → K) (expi : K → Cplx K) (np : Nat)
    (s : DipoleSum K) (p : NacParams K) (q0 : Int → Cplx K) (q : Nat → K) (dir : Option (Nat → K)) :
    Int → Cplx K :=
  let dd := multiplyBorns np p.born (getDd sqrt exp expi np s p.dielectric q dir)
  let dd' := runAdds dd (loop np fun i => loop 3 fun k => loop 3 fun l =>
    [((ddAdrs np i k i l : Nat), -q0 (i * 9 + k * 3 + l : Nat))])
  runWrites dd' (loop (np * np * 9) fun a => [((a : Nat), (dd' (a : Nat)).scale p.factor)])

/-- `get_gonze_phonons` up to the diagonalization, `c/phonon.c:302-373`. -/
def gonzeMatrix [LinearOrder K] (sqrt exp : K → K) (expi : K → Cplx K) (c : Fc2Cell K)
    (p : NacParams K) (s : DipoleSum K) (q0 : Int → Cplx K) (recip : Nat → Nat → K) (q : Nat → K)
    (dir : Option (Nat → K)) (mem : Int → Cplx K) : Int → Cplx K :=
  let dd := dipoleDipole sqrt exp expi c.numPatom s p q0 (qCart recip q)
    (dir.map (qCart recip))
  runAdds (dynamicalMatrixAtQ sqrt expi c none q mem)
    (loop c.numPatom fun i => loop c.numPatom fun j => loop 3 fun k => loop 3 fun l =>
      let mm := sqrt (c.mass i * c.mass j)
      let x := dd (ddAdrs c.numPatom i k j l : Nat)
      [((ddAdrs c.numPatom i k j l : Nat), ⟨x.re / mm, x.im / mm⟩)])

/-! ### Frequencies and full or compact force constants -/

/-- The frequency from an eigenvalue, `c/phonon.c:232-236, 293-297`. -/
def toFrequency [LinearOrder K] (sqrt : K → K) (factor e : K) : K :=
  sqrt |e| * ((if e > 0 then 1 else 0) - (if e < 0 then 1 else 0)) * factor

/-- `_get_fc_elements_mapping`, `phono3py/phonon/solver.py:244-259`: the maps `fc_p2s`, `fc_s2p` for
force constants of shape `(rows, cols, …)`; `p2p` is `primitive.p2p_map`, a dictionary from
supercell index to primitive index. -/
def fcElementsMapping (rows cols : Nat) (p2s s2p : Nat → Int) (p2p : Int → Int) :
    (Nat → Int) × (Nat → Int) :=
  if rows = cols then (p2s, s2p) else ((fun (i : Nat) => (i : Int)), fun k => p2p (s2p k))

end

end Phono3py
