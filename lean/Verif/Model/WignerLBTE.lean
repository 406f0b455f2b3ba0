/-
The direct solution of the Wigner transport equation: `ConductivityWignerLBTE` of
phono3py/conductivity/direct_solution.py and group velocities of degenerate bands in
phono3py/conductivity/wigner.py. `double` is an ordered field `K`.
-/
import Verif.Model.LBTE
import Verif.Model.Velocity
import Verif.Model.Conductivity

namespace Phono3py

section
variable {K : Type} [Field K] [LinearOrder K] {n : Nat}

/-- `gv_operator[pos : pos + len(deg), pos : pos + len(deg), id_dir]`,
phono3py/conductivity/wigner.py:121-123. -/
def operatorBlock (v : BandMatrix n K) (pos d : Nat) : BandMatrix d K := fun s t =>
  if h : pos + s.val < n ∧ pos + t.val < n then v ⟨pos + s.val, h.1⟩ ⟨pos + t.val, h.2⟩ else 0

/-- One Cartesian component of the group velocities of `_set_gv_operator`,
phono3py/conductivity/wigner.py:113-126, from the sizes of the degenerate sets starting at `pos`.
`eigvalsh` is `np.linalg.eigvalsh`. -/
def wignerVelocity (eigvalsh : (m : Nat) → BandMatrix m K → Fin m → K) (v : BandMatrix n K)
    (l : Nat) : Nat → List Nat → K
  | _, [] => if h : l < n then (v ⟨l, h⟩ ⟨l, h⟩).re else 0
  | pos, d :: ds =>
    if h : 1 < d ∧ pos ≤ l ∧ l < pos + d then
      eigvalsh d (operatorBlock v pos d) ⟨l - pos, by omega⟩
    else wignerVelocity eigvalsh v l (pos + d) ds

/-- `unit_to_WmK`, phono3py/conductivity/base.py:53-55, divided by the volume
(phono3py/conductivity/base.py:382). -/
def unitToWmK (thz angstrom ev pi volume : K) : K :=
  (thz * angstrom) ^ 2 / angstrom ^ 3 * ev / thz / (2 * pi) / volume

/-- `get_conversion_factor_WTE`, phono3py/conductivity/wigner.py:215-222. -/
def conversionWTE (thz angstrom ev hbar volume : K) : K :=
  (thz * angstrom) ^ 2 * ev * hbar / (volume * angstrom ^ 3)

/-- What a Wigner conductivity object reads of a crystal at one sigma and one temperature
(phono3py/conductivity/wigner.py:102-212, phono3py/conductivity/direct_solution.py:1645-1693): the
velocity operators `op i a` at the points, the sizes of the degenerate sets, the Cartesian
rotations, the multiplicity and the weight of each point, the linewidths and the heat
capacities. -/
structure WignerCrystal (n : Nat) (K : Type) where
  numGp : Nat
  numOps : Nat
  rotations : Nat → Fin 3 → Fin 3 → K
  multi : Nat → Nat
  weights : Nat → K
  frequencies : Nat → Nat → K
  cutoff : K
  degenerate : K
  op : Nat → Fin 3 → BandMatrix n K
  degSizes : Nat → List Nat
  eigvalsh : (m : Nat) → BandMatrix m K → Fin m → K
  g : Nat → Nat → K
  cv : Nat → Nat → K
  gammaAddress : Nat → Bool
  t : K
  kb : K
  toEv : K
  sinh : K → K
  factor : K
  factorWTE : K
  numSampling : K

/-- `_gv_operator_sum2[i, s1, s2]`, phono3py/conductivity/wigner.py:130-151. -/
def WignerCrystal.sum2 (x : WignerCrystal n K) (i s1 s2 : Nat) (c : Fin 6) : Cplx K :=
  if h : s1 < n ∧ s2 < n then
    gvByGvOperator ((List.range x.numOps).map x.rotations) (x.multi i) (x.op i) ⟨s1, h.1⟩ ⟨s2, h.2⟩
      (voigt c).1 (voigt c).2
  else 0

/-- Input of `ConductivityWignerRTA.set_kappa_at_sigmas`, phono3py/conductivity/rta.py:714-744. -/
def WignerCrystal.pairs (x : WignerCrystal n K) : WignerInput K where
  numGp := x.numGp
  numBand := n
  frequencies := x.frequencies
  cutoff := x.cutoff
  degenerate := x.degenerate
  toEv := x.toEv
  gSum := x.g
  cv := x.cv
  gvoSum2 := x.sum2
  factor := x.factorWTE
  n := x.numSampling

/-- Input of the populations' part of the direct solution: the group velocities are those of
`_set_gv_operator` (phono3py/conductivity/wigner.py:128,
phono3py/conductivity/direct_solution.py:791-817). -/
def WignerCrystal.modes (x : WignerCrystal n K) : LBTEInput K where
  numGp := x.numGp
  numBand := n
  numOps := x.numOps
  rotations := x.rotations
  frequencies := x.frequencies
  cutoff := x.cutoff
  weights := x.weights
  gv := fun i l a => wignerVelocity x.eigvalsh (x.op i a) l 0 (x.degSizes i)
  gammaAddress := x.gammaAddress
  t := x.t
  kb := x.kb
  toEv := x.toEv
  sinh := x.sinh
  factor := x.factor
  n := x.numSampling

/-- `_mode_kappa_C[i_sigma, i_temp]` after the loops of `_set_kappa_C_ir_colmat`,
phono3py/conductivity/direct_solution.py:1650-1689; `old` is the array before. -/
def lbteModeC (k : WignerInput K) (old : Nat → Nat → Nat → Fin 6 → Cplx K) (i s1 s2 : Nat)
    (c : Fin 6) : Cplx K :=
  if i < k.numGp ∧ s1 < k.numBand ∧ s2 < k.numBand then
    if (k.frequencies i s1 > k.cutoff ∧ k.frequencies i s2 > k.cutoff) ∧
        |k.frequencies i s1 - k.frequencies i s2| > k.degenerate then
      let w1 := k.frequencies i s1 * k.toEv
      let w2 := k.frequencies i s2 * k.toEv
      let h1 := k.gSum i s1 * 2 * k.toEv
      let h2 := k.gSum i s2 * 2 * k.toEv
      let lorentzian := (1 / 2 * (h1 + h2)) / ((w1 - w2) ^ 2 + 1 / 4 * (h1 + h2) ^ 2)
      let prefactor := 1 / 4 * (w1 + w2) * (k.cv i s1 / w1 + k.cv i s2 / w2)
      (((k.gvoSum2 i s1 s2 c).scale prefactor).scale lorentzian).scale k.factor
    else old i s1 s2 c
  else old i s1 s2 c

/-- `_kappa_C[i_sigma, i_temp]`, phono3py/conductivity/direct_solution.py:1691-1693. -/
def lbteKappaC (k : WignerInput K) (m : Nat → Nat → Nat → Fin 6 → Cplx K) (c : Fin 6) : K :=
  (sumLoop k.numBand fun s2 => sumLoop k.numBand fun s1 => sumLoop k.numGp fun i =>
    (m i s1 s2 c).re) / k.n

/-- Arrays of `ConductivityWignerLBTE` for one sigma and one temperature
(phono3py/conductivity/direct_solution.py:1496-1554). `lbte` holds the collision matrix and the
populations' parts `kappa_P_exact` (as `kappa`) and `kappa_P_RTA` (as `kappaRTA`). -/
structure WignerLbteState (K : Type) where
  lbte : LBTEState K
  modeC : Nat → Nat → Nat → Fin 6 → Cplx K
  kappaC : Fin 6 → K
  kappaTotExact : Fin 6 → K
  kappaTotRTA : Fin 6 → K

/-- `_allocate_local_values`, phono3py/conductivity/direct_solution.py:1501-1554; `colmat` is the
collected collision matrix. -/
def wignerLbteNew (colmat : Nat → Nat → K) : WignerLbteState K where
  lbte :=
    { colmat := colmat, eigenvalues := fun _ => 0, modeKappa := fun _ _ _ => 0, kappa := fun _ => 0
      modeKappaRTA := fun _ _ _ => 0, kappaRTA := fun _ => 0 }
  modeC := fun _ _ _ _ => 0
  kappaC := fun _ => 0
  kappaTotExact := fun _ => 0
  kappaTotRTA := fun _ => 0

/-- The coherences' part of `_set_kappa_RTA`, phono3py/conductivity/direct_solution.py:1630-1643:
left as it is with a reducible collision matrix. -/
def wignerLbteCoherences (reducible : Bool) (k : WignerInput K) (st : WignerLbteState K) :
    WignerLbteState K :=
  if reducible then st
  else { st with modeC := lbteModeC k st.modeC, kappaC := lbteKappaC k (lbteModeC k st.modeC) }

/-- `set_kappa_at_sigmas` (phono3py/conductivity/direct_solution.py:222-235) with
`_set_kappa_at_sigmas` of `ConductivityWignerLBTE`, 1556-1618, for one sigma and one temperature.
The eigenvalues stored with solver 7 (`nan`) are left out. -/
def wignerLbteEvaluate (s : LBTESettings K) (p : LBTEInput K) (k : WignerInput K)
    (st : WignerLbteState K) : Option (WignerLbteState K) :=
  (lbteEvaluate s p st.lbte).map fun l =>
    if p.t > 0 then { wignerLbteCoherences s.reducible k st with lbte := l }
    else { st with lbte := l }

/-- Datasets of a kappa file: `kappa_P_exact`, `kappa_P_RTA`, `kappa_C`, `kappa_TOT_exact` and
`kappa_TOT_RTA` (phono3py/conductivity/utils.py:517-598, 628-633). -/
structure WignerFile (K : Type) where
  pExact : Fin 6 → K
  pRTA : Fin 6 → K
  c : Fin 6 → K
  totExact : Fin 6 → K
  totRTA : Fin 6 → K

/-- The conductivities `write_kappa` puts in a kappa file,
phono3py/conductivity/utils.py:517-598. -/
def wignerLbteFile (st : WignerLbteState K) : WignerFile K where
  pExact := st.lbte.kappa
  pRTA := st.lbte.kappaRTA
  c := st.kappaC
  totExact := fun c => st.lbte.kappa c + st.kappaC c
  totRTA := fun c => st.lbte.kappaRTA c + st.kappaC c

end
end Phono3py
