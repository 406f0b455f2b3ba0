/-
C151 for the code: the rows of `JointDos` are computed point by point with the tetrahedron method and
with smearing.
-/
import Verif.Props.JdosObject
import Verif.Props.JointDos

namespace Phono3py.Props

open Finset Spec

section
variable {V E K : Type} [Field K] [LinearOrder K] [IsStrictOrderedRing K]

/-- Fixed data for the weights and sums of a `JointDos` object: triplets and their weights by grid
point (`_set_triplets`, phono3py/phonon3/joint_dos.py:429-442), the grid, and the parameters of
`tetrahedronWeights`, `smearingWeights` and `jointDos`. `sigmaCutoff` is -1 for `None`
(phono3py/phonon3/triplets.py:186-201). `iw` and `zero` are contents of new arrays. -/
structure JdosCode (K : Type) where
  bose : K → K → K
  gaussian : K → K → K
  sigmaCutoff : K
  cutoff : K
  eps : K
  g0 : Fin 3 → K
  relative : Fin 24 → Fin 4 → V3
  bz : BZGridOut
  D : V3
  dense : Bool
  numBand : Nat
  numTriplets : Nat → Nat
  triplets : Nat → Nat → Fin 3 → Int
  weights : Nat → Nat → Int
  iw : Int → K
  zero : Int → Bool

/-- The array `_frequencies` from the rows of the grid points
(phono3py/phonon3/joint_dos.py:444-448). -/
def JdosCode.flat (c : JdosCode K) (f : Nat → Nat → K) (p : Int) : K :=
  f (p / c.numBand).toNat (p % c.numBand).toNat

/-- `run_integration_weights`, phono3py/phonon3/joint_dos.py:328-337: the data of `run_jdos`. -/
def JdosCode.input (c : JdosCode K) (gp : Nat) (f : Nat → Nat → K)
    (sigma temperature : Option K) (pts : List K) : JdosInput K :=
  let tp := if temperature.isNone then 3 else 2
  let w := match sigma with
    | none => tetrahedronWeights c.eps c.g0 (fun j => pts.getD j 0) pts.length c.relative
        (c.triplets gp) (c.numTriplets gp) c.bz c.D c.dense (c.flat f) c.numBand (c.flat f) c.numBand
        tp c.iw c.zero
    | some s => smearingWeights c.gaussian s c.sigmaCutoff (fun j => pts.getD j 0) pts.length
        (c.triplets gp) (c.numTriplets gp) (c.flat f) c.numBand tp c.iw c.zero
  { bose := c.bose, numTriplets := c.numTriplets gp, numBand := c.numBand, numPoints := pts.length,
    frequencies := c.flat f, triplets := c.triplets gp, weights := c.weights gp, g := w.1,
    gZero := w.2, cutoff := c.cutoff, D := c.D }

/-- `run_integration_weights` and `run_jdos`, phono3py/phonon3/joint_dos.py:328-378: the rows of
`joint_dos`. -/
def JdosCode.spectrum (c : JdosCode K) (gp : Nat) (f : Nat → Nat → K)
    (sigma temperature : Option K) (pts : List K) : List (Fin 2 → K) :=
  (List.range pts.length).map fun (x : Nat) column =>
    jointDos (c.input gp f sigma temperature pts) temperature true x column


/-- Rows with the same weights have the same values. -/
theorem jointDos_congr (o o' : JdosInput K) (h0 : o'.bose = o.bose)
    (h1 : o'.numTriplets = o.numTriplets) (h2 : o'.numBand = o.numBand)
    (h3 : o'.frequencies = o.frequencies) (h4 : o'.triplets = o.triplets)
    (h5 : o'.weights = o.weights) (h6 : o'.cutoff = o.cutoff) (h7 : o'.D = o.D)
    (t : Option K) (hocc : OccupationsSound o t) {x x' : Nat} (hx : x < o.numPoints)
    (hx' : x' < o'.numPoints)
    (hf : FlagsSound o.numTriplets 1 o.numBand o.numPoints (fun _ => 1) o.g o.gZero 0 x)
    (hf' : FlagsSound o'.numTriplets 1 o'.numBand o'.numPoints (fun _ => 1) o'.g o'.gZero 0 x')
    (hg : ∀ s < (if t.isNone then 3 else 2), ∀ i < o.numTriplets, ∀ k < o.numBand, ∀ l < o.numBand,
      o'.g (at5 o.numTriplets o'.numPoints o.numBand o.numBand s i x' k l : Nat) =
        o.g (at5 o.numTriplets o.numPoints o.numBand o.numBand s i x k l : Nat))
    (langC : Bool) (column : Fin 2) :
    jointDos o' t langC x' column = jointDos o t langC x column := by
  have hcol : column = 1 ∨ column = 0 := by fin_cases column <;> simp
  cases t with
  | none =>
    obtain ⟨n1, n0⟩ := C134_none o langC x
    obtain ⟨m1, m0⟩ := C134_none o' langC x'
    rw [h1, h2, h5, h7] at m1 m0
    rcases hcol with rfl | rfl
    · rw [n1, m1]
      congr 1
      refine Finset.sum_congr rfl fun i hi => congrArg _ (Finset.sum_congr rfl fun k hk =>
        Finset.sum_congr rfl fun l hl => ?_)
      exact hg 0 (by simp) i (mem_range.1 hi) k (mem_range.1 hk) l (mem_range.1 hl)
    · rw [n0, m0]
      congr 1
      refine Finset.sum_congr rfl fun i hi => congrArg _ (Finset.sum_congr rfl fun k hk =>
        Finset.sum_congr rfl fun l hl => ?_)
      rw [hg 0 (by simp) i (mem_range.1 hi) k (mem_range.1 hk) l (mem_range.1 hl),
        hg 2 (by simp) i (mem_range.1 hi) k (mem_range.1 hk) l (mem_range.1 hl)]
  | some T =>
    obtain ⟨p1, p2⟩ := hocc T rfl
    obtain ⟨n1, n0⟩ := C134_temperature o T p1 p2 hx hf langC
    obtain ⟨m1, m0⟩ := C134_temperature o' T (by rw [h0, h6]; exact p1) (by rw [h0, h6]; exact p2)
      hx' hf' langC
    have key : ∀ s < 2, ∀ F : K → K → K, pairDos o' T x' s F = pairDos o T x s F := by
      intro s hs F
      unfold pairDos
      rw [h0, h1, h2, h3, h4, h5, h6, h7]
      congr 1
      refine Finset.sum_congr rfl fun i hi => congrArg _ (Finset.sum_congr rfl fun k hk =>
        Finset.sum_congr rfl fun l hl => ?_)
      rw [hg s (by simpa using hs) i (mem_range.1 hi) k (mem_range.1 hk) l (mem_range.1 hl)]
    rcases hcol with rfl | rfl
    · rw [m1, n1, key 0 (by decide)]
    · rw [m0, n0, key 1 (by decide)]

/-- The row of one frequency point: the code run for this point alone. -/
def JdosCode.row (c : JdosCode K) (gp : Nat) (f : Nat → Nat → K) (sigma temperature : Option K)
    (p : K) : Fin 2 → K :=
  jointDos (c.input gp f sigma temperature [p]) temperature true 0

/-- Temperatures at which the occupations of modes above the cutoff frequency are not negative, and
vanish unless the temperature is positive. -/
def JdosCode.Valid (c : JdosCode K) (t : Option K) : Prop :=
  ∀ T, t = some T → (∀ f, c.cutoff < f → 0 ≤ c.bose f T) ∧
    (0 < T ∨ ∀ f, c.cutoff < f → c.bose f T = 0)

/-- Weights and flags of a point, whatever the other points. -/
theorem code_weights (c : JdosCode K) (gp : Nat) (f : Nat → Nat → K) (sigma t : Option K) :
    ∃ G : K → Nat → Nat → Nat → Nat → K, ∀ (pts : List K) (x : Nat) (hx : x < pts.length),
      ∀ i < c.numTriplets gp, ∀ k < c.numBand, ∀ l < c.numBand,
        (∀ s < (if t.isNone then 3 else 2), (c.input gp f sigma t pts).g
          (at5 (c.numTriplets gp) pts.length c.numBand c.numBand s i x k l : Nat) = G pts[x] s i k l) ∧
        ((c.input gp f sigma t pts).gZero (at4 pts.length c.numBand c.numBand i x k l : Nat) = true →
          ∀ s < (if t.isNone then 3 else 2), (c.input gp f sigma t pts).g
            (at5 (c.numTriplets gp) pts.length c.numBand c.numBand s i x k l : Nat) = 0) := by
  set tp := if t.isNone then 3 else 2 with htp
  have htp' : tp = 2 ∨ tp = 3 := by
    rw [htp]; split
    · exact Or.inr rfl
    · exact Or.inl rfl
  have ht : tp = 2 ∨ tp = 3 ∨ tp = 4 := htp'.elim Or.inl fun h => Or.inr (Or.inl h)
  have hn : numSlabs tp = tp := by rcases htp' with h | h <;> rw [h] <;> rfl
  cases sigma with
  | none =>
    refine ⟨fun p s i k l => slabContent tp s fun j => thmIntegrationWeight c.eps true p
      (combination (c.flat f) (c.flat f) (tripletVertices c.bz c.D c.dense
        (setRelativeGridAddress c.relative tp) (c.triplets gp i)) c.numBand c.numBand k l tp j),
      fun pts x hx i hi k hk l hl => ?_⟩
    have w := C23_weights c.eps c.g0 (fun j => pts.getD j 0) pts.length c.relative (c.triplets gp)
      (c.numTriplets gp) c.bz c.D c.dense (c.flat f) c.numBand (c.flat f) c.numBand tp c.iw c.zero ht
      i x k l hi hx hk hl
    have hp : pts.getD x 0 = pts[x] := by simp [List.getD, hx]
    dsimp only at w
    rw [hp, hn] at w
    exact ⟨w.1, w.2.2⟩
  | some sg =>
    refine ⟨fun p s i k l =>
      if 0 < sg * c.sigmaCutoff ∧ ∀ j : Fin 3, (tp = 4 → j = 0) → sg * c.sigmaCutoff <
          |deltaArguments p (c.flat f (c.triplets gp i 1 * c.numBand + k))
            (c.flat f (c.triplets gp i 2 * c.numBand + l)) j| then 0
      else slabContent tp s fun j => c.gaussian
        (deltaArguments p (c.flat f (c.triplets gp i 1 * c.numBand + k))
            (c.flat f (c.triplets gp i 2 * c.numBand + l)) j) sg,
      fun pts x hx i hi k hk l hl => ?_⟩
    have w := C24_flag c.gaussian sg c.sigmaCutoff (fun j => pts.getD j 0) pts.length (c.triplets gp)
      (c.numTriplets gp) (c.flat f) c.numBand tp c.iw c.zero ht i x k l hi hx hk hl
    have hp : pts.getD x 0 = pts[x] := by simp [List.getD, hx]
    dsimp only at w
    rw [hp, hn] at w
    refine ⟨fun s hs => ?_, w.2.1⟩
    dsimp only
    split
    · rename_i h
      exact w.2.1 (w.1.2 h) s hs
    · rename_i h
      exact w.2.2 (Bool.eq_false_iff.2 fun hc => h (w.1.1 hc)) s hs

/-- C151 (rows): with the tetrahedron method and with smearing, with and without temperature, the
rows of `joint_dos` are those of their frequency points alone. -/
theorem C151_rows (c : JdosCode K) (e : JdosEnv V K (Nat → K) E (Fin 2 → K))
    (he : e.spectrum = c.spectrum) : SpectrumRows e c.Valid c.row := by
  intro gp f sigma t pts hv
  rw [he]
  unfold JdosCode.spectrum
  refine List.ext_getElem (by simp) fun x hx _ => ?_
  have hx : x < pts.length := by simpa using hx
  rw [List.getElem_map, List.getElem_map, List.getElem_range]
  funext column
  obtain ⟨G, hG⟩ := code_weights c gp f sigma t
  have two : ∀ s < 2, s < (if t.isNone then 3 else 2) := by intro s hs; split <;> omega
  refine jointDos_congr (c.input gp f sigma t [pts[x]]) (c.input gp f sigma t pts) rfl rfl rfl rfl rfl
    rfl rfl rfl t hv Nat.one_pos hx ?_ ?_ ?_ true column
  · intro i hi k hk l hl hz
    have h := (hG [pts[x]] 0 Nat.one_pos i hi k hk l hl).2 hz
    exact Or.inl ⟨h 0 (two 0 (by decide)), h 1 (two 1 (by decide))⟩
  · intro i hi k hk l hl hz
    have h := (hG pts x hx i hi k hk l hl).2 hz
    exact Or.inl ⟨h 0 (two 0 (by decide)), h 1 (two 1 (by decide))⟩
  · intro s hs i hi k hk l hl
    exact ((hG pts x hx i hi k hk l hl).1 s hs).trans
      ((hG [pts[x]] 0 Nat.one_pos i hi k hk l hl).1 s hs).symm

/-- **C151 (code).** After any sequence of runs of a new object a run stores, for each grid point,
width and temperature and at every frequency point, what the code gives for this frequency point
alone from the phonons of the grid, with the direction at Γ if and only if the grid point is Γ. -/
theorem C151_code [Inhabited K] (c : JdosCode K) (e : JdosEnv V K (Nat → K) E (Fin 2 → K))
    (he : e.spectrum = c.spectrum) (hg : GammaPoint e.nac)
    (d : Option V) (history : List (JdosSetup V K × List Nat))
    (hh : ∀ r ∈ history, r.1.dir = d ∧ (∀ t ∈ r.1.temps, c.Valid t) ∧
      ∀ gp ∈ r.2, gp < e.nac.solver.numPhonons)
    (o : JdosSetup V K) (ho : o.dir = d) (hv : ∀ t ∈ o.temps, c.Valid t) (gps : List Nat)
    (hgps : ∀ gp ∈ gps, gp < e.nac.solver.numPhonons)
    (hs : o.sigmas ≠ []) (hb : 0 < o.batchSize.getD 10) :
    let pts := e.points (freqWith e.nac none)
    ∃ l, (apiJdosRun e o e.nac.solver.isGamma gps (jdosHistory e history (jdosNew e))).2 =
        some (pts, l) ∧
      List.Forall₂ (fun gp A => List.Forall₂ (fun sigma B => List.Forall₂ (fun t C =>
        ∀ k (hk : k < pts.length), C k =
          c.row gp (freqWith e.nac (if gp = e.nac.gamma then d else none)) sigma t pts[k])
        o.temps B) o.sigmas A) gps l :=
  C151_run e hg (C151_rows c e he) d history hh o ho hv gps hgps hs hb

/-- One triplet of the point Γ, three bands. -/
def exampleJdosCode : JdosCode ℚ where
  bose := fun f T => T / f
  gaussian := fun _ _ => 1
  sigmaCutoff := -1
  cutoff := 0
  eps := 0
  g0 := fun _ => 0
  relative := fun _ _ => ⟨0, 0, 0⟩
  bz := { addresses := fun _ => ⟨0, 0, 0⟩, gpMap := fun _ => 0, bzg2grg := fun _ => 0, size := 1 }
  D := ⟨1, 1, 1⟩
  dense := true
  numBand := 3
  numTriplets := fun _ => 1
  triplets := fun _ _ _ => 0
  weights := fun _ _ => 1
  iw := fun _ => 0
  zero := fun _ => false

/-- Temperatures of positive occupations are valid. -/
example : exampleJdosCode.Valid (some 300) := by
  rintro T ⟨⟩
  exact ⟨fun f hf => div_nonneg (by norm_num) (le_of_lt hf), Or.inl (by norm_num)⟩

end
end Phono3py.Props
