import Mathlib.Analysis.SpecialFunctions.Exp
import Mathlib.Analysis.SpecialFunctions.Sqrt
import Mathlib.Analysis.Real.Pi.Bounds
import Mathlib.Data.Real.Sign
import Mathlib.Data.Matrix.Mul

/-!
# Stochastic force constants

Model of `phono3py/sscha/sscha.py` and of the functions of `phono3py/phonon/func.py` it uses.

Simplifications: doubles are real numbers; the flat index `3 * i + a` of atom `i` and direction `a` is
the pair `(i, a)`; `np.linalg.eigh` and `np.linalg.pinv` are external, their results are arguments.
-/

namespace Phono3py

open Finset

noncomputable section

/-! ### Mode lengths -/

/-- Units (phonon/func.py:37, 99) and the range in which `exp` neither overflows nor
underflows. -/
structure BoseUnits where
  thzToEv : ℝ
  kb : ℝ
  factor : ℝ
  expOk : ℝ → Prop

open Classical in
/-- `bose_einstein` while numpy's errors raise (phonon/func.py:46-65, 94-97): `none` is
`FloatingPointError`. -/
def boseEinsteinRaise (c : BoseUnits) (x T : ℝ) : Option ℝ :=
  if c.kb * T = 0 then none
  else
    let y := c.thzToEv * x / (c.kb * T)
    if ¬ c.expOk y then none
    else if Real.exp y - 1 = 0 then none
    else some (1 / (Real.exp y - 1))

open Classical in
/-- `sigma_squared` (phonon/func.py:68-106) with numpy's error handling `state` before and after;
`raiseAll` is the handling set by `np.seterr(all="raise")`. -/
def sigmaSquared {E ι : Type} (c : BoseUnits) (raiseAll state : E) (x : ι → ℝ) (T : ℝ) :
    E × Option (ι → ℝ) :=
  if ∀ i, (boseEinsteinRaise c (x i) T).isSome then
    (state, some fun i => (0.5 + (boseEinsteinRaise c (x i) T).getD 0) / x i * c.factor)
  else (raiseAll, none)

/-! ### Supercell phonons and correlation matrices -/

/-- `_fc2` of `SupercellPhonon.__init__` (sscha/sscha.py:116-120). -/
def flatFc2 {N : Nat} (fc : Fin N → Fin N → Fin 3 → Fin 3 → ℝ) :
    Matrix (Fin N × Fin 3) (Fin N × Fin 3) ℝ :=
  fun x y => fc x.1 y.1 x.2 y.2

/-- `dynmat` of `SupercellPhonon.__init__` (sscha/sscha.py:121-124). -/
def supercellDynmat {N : Nat} (masses : Fin N → ℝ) (fc2 : Matrix (Fin N × Fin 3) (Fin N × Fin 3) ℝ) :
    Matrix (Fin N × Fin 3) (Fin N × Fin 3) ℝ :=
  let inv : Fin N × Fin 3 → ℝ := fun x => 1 / Real.sqrt (masses x.1)
  fun x y => inv y * (inv x * fc2 y x)

/-- `freqs` of `SupercellPhonon.__init__` (sscha/sscha.py:126-127). -/
def supercellFrequency (factor eigenvalue : ℝ) : ℝ :=
  Real.sqrt |eigenvalue| * Real.sign eigenvalue * factor

/-- Results of `DispCorrMatrix.run`: `psi_matrix`, `upsilon_matrix` and `prefactor`
(sscha/sscha.py:221-231). -/
structure DispCorr (ι : Type) where
  psi : Matrix ι ι ℝ
  upsilon : Matrix ι ι ℝ
  prefactor : ℝ

open Classical in
/-- `a2` of `DispCorrMatrix.run` (sscha/sscha.py:215-218). -/
def keptLengths {ι : Type} (cutoff : ℝ) (freqs len : ι → ℝ) : ι → ℝ :=
  fun s => if freqs s > cutoff then len s else 0

open Classical in
/-- `a2_inv` of `DispCorrMatrix.run` (sscha/sscha.py:215-219). -/
def keptInverses {ι : Type} (cutoff : ℝ) (freqs len : ι → ℝ) : ι → ℝ :=
  fun s => if freqs s > cutoff then 1 / len s else 0

open Classical in
/-- `DispCorrMatrix.run` (sscha/sscha.py:200-231). `eigvecs x s` is component `x` of mode `s`. -/
def dispCorrRun {N : Nat} {E : Type} (c : BoseUnits) (raiseAll state : E) (masses : Fin N → ℝ)
    (cutoff : ℝ) (freqs : Fin N × Fin 3 → ℝ) (eigvecs : Matrix (Fin N × Fin 3) (Fin N × Fin 3) ℝ)
    (T : ℝ) : E × Option (DispCorr (Fin N × Fin 3)) :=
  let sq : Fin N × Fin 3 → ℝ := fun x => Real.sqrt (masses x.1)
  let inv : Fin N × Fin 3 → ℝ := fun x => 1 / Real.sqrt (masses x.1)
  let r := sigmaSquared c raiseAll state (fun s => if freqs s > cutoff then freqs s else 1) T
  (r.1, r.2.map fun len =>
    let a2 := keptLengths cutoff freqs len
    let a2inv := keptInverses cutoff freqs len
    let m1 : Matrix (Fin N × Fin 3) (Fin N × Fin 3) ℝ :=
      fun x y => ∑ s, a2 s * eigvecs x s * eigvecs y s
    let m2 : Matrix (Fin N × Fin 3) (Fin N × Fin 3) ℝ :=
      fun x y => ∑ s, a2inv s * eigvecs x s * eigvecs y s
    { psi := fun x y => inv y * (inv x * m1 y x)
      upsilon := fun x y => sq y * (sq x * m2 y x)
      prefactor := Real.sqrt (1 / ∏ s ∈ univ.filter (fun s => freqs s > cutoff),
        (2 * Real.pi * a2 s)) })

/-! ### Averages over snapshots -/

/-- `np.dot(u.T, u) / u.shape[0]` (sscha/sscha.py:426, 551). -/
def snapshotCovariance {n : Nat} {ι : Type} (u : Fin n → ι → ℝ) : Matrix ι ι ℝ :=
  fun x y => (∑ l, u l x * u l y) / n

/-- `u_inv` (sscha/sscha.py:427, 555); `Y` is the pseudo-inverse of the covariance. -/
def snapshotInverse {n : Nat} {ι : Type} [Fintype ι] (Y : Matrix ι ι ℝ) (u : Fin n → ι → ℝ) :
    Fin n → ι → ℝ :=
  fun l x => ∑ p, u l p * Y p x

/-- `SecondOrderFC.run` (sscha/sscha.py:407-439) before the last transposition. -/
def ensembleFc2Flat {n : Nat} {ι : Type} [Fintype ι] (Y : Matrix ι ι ℝ) (u f : Fin n → ι → ℝ) :
    Matrix ι ι ℝ :=
  fun x y => -(∑ l, snapshotInverse Y u l x * f l y) / n

/-- `SecondOrderFC.run` (sscha/sscha.py:407-445). -/
def ensembleFc2 {n N : Nat} (Y : Matrix (Fin N × Fin 3) (Fin N × Fin 3) ℝ)
    (u f : Fin n → Fin N × Fin 3 → ℝ) : Fin N → Fin N → Fin 3 → Fin 3 → ℝ :=
  fun i j a b => ensembleFc2Flat Y u f (i, a) (j, b)

/-- `ThirdOrderFC._run_fmat` (sscha/sscha.py:540-544). -/
def ensembleForces {n : Nat} {ι : Type} [Fintype ι] (fc2 : Matrix ι ι ℝ) (u f : Fin n → ι → ℝ) :
    Fin n → ι → ℝ :=
  fun l k => f l k - (∑ m, f m k) / n + ∑ p, u l p * fc2 p k

/-- `ThirdOrderFC._run_fc3_ave` (sscha/sscha.py:546-564). -/
def ensembleFc3Flat {n : Nat} {ι : Type} [Fintype ι] (Y : Matrix ι ι ℝ) (u g : Fin n → ι → ℝ)
    (i j k : ι) : ℝ :=
  -(∑ l, snapshotInverse Y u l i * snapshotInverse Y u l j * g l k) / n

/-- `ThirdOrderFC.run` (sscha/sscha.py:528-538). -/
def ensembleFc3 {n N : Nat} (fc2 Y : Matrix (Fin N × Fin 3) (Fin N × Fin 3) ℝ)
    (u f : Fin n → Fin N × Fin 3 → ℝ) :
    Fin N → Fin N → Fin N → Fin 3 → Fin 3 → Fin 3 → ℝ :=
  fun i j k a b c => ensembleFc3Flat Y u (ensembleForces fc2 u f) (i, a) (j, b) (k, c)

end
end Phono3py
