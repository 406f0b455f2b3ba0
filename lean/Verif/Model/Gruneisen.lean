/-
Mode Grueneisen parameters: phono3py/phonon3/gruneisen.py. `double` is a field `K`; `sqrt` and
`expi x`, standing for `exp(2j pi x)`, are arbitrary functions. Eigenvalues and eigenvectors
(`np.linalg.eigh`) and the dynamical matrix (phonopy's `DynamicalMatrix`) are parameters; what the
theorems need of them is stated there.
-/
import Verif.Model.DynMat

namespace Phono3py

/-- What a `Gruneisen` object holds of the crystal, phono3py/phonon3/gruneisen.py:140-161: `fc2`,
shortest vectors, masses and maps as for the dynamical matrix, and `fc3 row p m i j a`, which is
`fc3[row, p, m, i, j, a]`, the lattice (rows are basis vectors) and `p2p_map`. -/
structure GrunCell (K : Type) extends Fc2Cell K where
  /-- Third-order force constants. -/
  fc3 : Int → Nat → Nat → Nat → Nat → Nat → K
  /-- `primitive.cell`. -/
  lat : Nat → Nat → K
  /-- `primitive.p2p_map`. -/
  p2p : Int → Nat

section
variable {K : Type} [Field K]

/-- `_get_R(...)[N, k]`, phono3py/phonon3/gruneisen.py:464-472. -/
def grunR (c : GrunCell K) (nu N k : Nat) : K :=
  let m := c.multi (N * c.numPatom + nu)
  sumLoop 3 fun d => (sumLoop m.1 fun x => c.svecs (m.2 + x) d) / m.1 * c.lat d k

/-- `_get_Gamma`, phono3py/phonon3/gruneisen.py:474-494: element `G[pi, mu, k, i]` from eigenvalues
`vals s` and real eigenvectors `vecs row s`. A zero eigenvalue gives an infinite or undefined value
in numpy and counts as zero here. -/
def grunGamma (sqrt : K → K) (c : GrunCell K) (vals : Nat → K) (vecs : Nat → Nat → K)
    (pi mu k i : Nat) : K :=
  1 / sqrt (c.mass pi * c.mass mu) * sumLoop (c.numPatom * 3 - 3) fun s =>
    vecs (pi * 3 + k) (3 + s) * vecs (mu * 3 + i) (3 + s) / vals (3 + s)

/-- `_get_X`, phono3py/phonon3/gruneisen.py:442-462: element `X[mu, i, j, k]`; `P[p2s[nu], N, ll, j]`
is read from the flat array. -/
def grunX (sqrt : K → K) (c : GrunCell K) (vals : Nat → K) (vecs : Nat → Nat → K)
    (mu i j k : Nat) : K :=
  (List.range c.numPatom).foldl (fun x nu => (List.range 3).foldl (fun x ll =>
    x - grunGamma sqrt c vals vecs mu nu i ll * sumLoop c.numSatom fun N =>
      c.fc2 (c.p2s nu * c.numSatom * 9 + N * 9 + ll * 3 + j) * grunR c nu N k) x) 0

/-- `self._X`, phono3py/phonon3/gruneisen.py:157-161. -/
def grunXOf (sqrt : K → K) (c : GrunCell K) (ionClamped : Bool) (vals : Nat → K)
    (vecs : Nat → Nat → K) : Nat → Nat → Nat → Nat → K :=
  if ionClamped then fun _ _ _ _ => 0 else grunX sqrt c vals vecs

/-- `_get_Y(nu)`, phono3py/phonon3/gruneisen.py:425-440: element `Y[M, a, k, l]`. -/
def grunY (c : GrunCell K) (X : Nat → Nat → Nat → Nat → K) (nu M a k l : Nat) : K :=
  (if a = k then grunR c nu M l else 0) + X (c.p2p (c.s2p M)) a k l

/-- `_get_dPhidu`, phono3py/phonon3/gruneisen.py:402-423: element `dPhidu[nu, pi, i, j, k, l]`. The
innermost loop stores the same value three times. -/
def grunDPhi (c : GrunCell K) (X : Nat → Nat → Nat → Nat → K) (nu pi i j k l : Nat) : K :=
  sumLoop c.numSatom fun M => sumLoop 3 fun a => c.fc3 (c.p2s nu) pi M i j a * grunY c X nu M a k l

/-- `phase` of `_get_dDdu`, phono3py/phonon3/gruneisen.py:387-396. -/
def grunPhase (expi : K → Cplx K) (c : GrunCell K) (q : Nat → K) (nu P : Nat) : Cplx K :=
  let m := c.multi (P * c.numPatom + nu)
  (sumLoop m.1 fun x => expi (sumLoop 3 fun d => c.svecs (m.2 + x) d * q d)).scale (1 / m.1)

/-- `_get_dDdu`, phono3py/phonon3/gruneisen.py:374-400: element `dDdu[nu, pi, i, j, k, l]`. -/
def grunDD (sqrt : K → K) (expi : K → Cplx K) (c : GrunCell K) (X : Nat → Nat → Nat → Nat → K)
    (q : Nat → K) (nu pi i j k l : Nat) : Cplx K :=
  ((List.range c.numSatom).foldl (fun s P =>
    if c.s2p P = c.p2s pi then
      s + (grunPhase expi c q nu P).scale (grunDPhi c X nu P i j k l)
    else s) 0).scale (1 / sqrt (c.mass nu * c.mass pi))

/-- `conjugate` (phono3py/phonon3/gruneisen.py:358). -/
def grunConj (z : Cplx K) : Cplx K := ⟨z.re, -z.im⟩

/-- `(np.abs(q) < 1e-5).all()`, phono3py/phonon3/gruneisen.py:311, 358. -/
def nearGamma [LinearOrder K] (q : Nat → K) : Bool :=
  (List.range 3).all fun d => decide (|q d| < 1 / 100000)

/-- `_get_gruneisen_tensor`, phono3py/phonon3/gruneisen.py:347-372: element `g[s][k][l]`; `omega2 s`
and `w row s` are the eigenvalues and eigenvectors of the dynamical matrix. -/
def grunTensor [LinearOrder K] (sqrt : K → K) (expi : K → Cplx K) (c : GrunCell K)
    (X : Nat → Nat → Nat → Nat → K) (q : Nat → K) (omega2 : Nat → K) (w : Nat → Nat → Cplx K)
    (s k l : Nat) : K :=
  if nearGamma q ∧ s < 3 then 0
  else
    (List.range 3).foldl (fun g i => (List.range 3).foldl (fun g j =>
      (List.range c.numPatom).foldl (fun g nu => (List.range c.numPatom).foldl (fun g pi =>
        g + (grunConj (w (nu * 3 + i) s) * grunDD sqrt expi c X q nu pi i j k l *
          w (pi * 3 + j) s).re) g) g) g) 0 * (-1 / 2 / omega2 s)

end
end Phono3py
