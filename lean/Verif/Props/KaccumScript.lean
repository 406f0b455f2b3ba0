/-
C154: `phono3py-kaccum` prints, for every temperature or the one asked for, the accumulated
property of the modes in the file, ending at their total.
-/
import Verif.Model.KaccumScript
import Verif.Props.Kaccum

namespace Phono3py.Props
open Finset Spec

section
variable {K : Type _} [Field K] [LinearOrder K] [IsStrictOrderedRing K] [FloorRing K]

/-! ### Specification -/

/-- The arrays of the file fit together. -/
structure FileFits (f : KaccumFile K) : Prop where
  frequency : f.frequency.length = f.numGp * f.numBand
  weight : ∀ w, f.weight = some w → w.length = f.numGp
  irWeights : ∀ w, f.irGridWeights = some w → w.length = f.irGridPoints.length

/-- The grid made from the mesh of the file is the Brillouin-zone grid of the lattice. -/
structure GridMade (g : KaccumGrid K) (b : BZInput K) (init : BZGridOut) : Prop where
  mesh : PosMesh b.D
  lattice : ∃ i j, b.reclat i j ≠ 0
  grid : bzGrid b g.dense init = some g.bz
  D : g.D = b.D
  table : (g.bzg2grg.length : Int) = g.bz.size
  ir : g.irPoints.length = g.irWeights.length

/-- The options for scalar properties. -/
def scalarOption (a : KaccumArgs K) : Bool :=
  a.gamma || a.gruneisen || a.pqj || a.cv || a.tau || a.gvNorm || a.dos

/-! ### Lists of results -/

theorem mapM_get {α β : Type _} (h : α → Option β) (l : List α) (r : List β)
    (hr : l.mapM h = some r) :
    r.length = l.length ∧ ∀ i (hi : i < l.length), h l[i] = r[i]? := by
  rw [mapM_forall₂, List.forall₂_iff_get] at hr
  refine ⟨hr.1.symm, fun i hi => ?_⟩
  have h2 := hr.2 i hi (hr.1 ▸ hi)
  simp only [List.get_eq_getElem] at h2
  rw [h2, List.getElem?_eq_getElem]

theorem mapM_of_get {α β : Type _} (h : α → Option β) (l : List α) (r : List β)
    (hl : r.length = l.length) (hg : ∀ i (hi : i < l.length), h l[i] = r[i]?) :
    l.mapM h = some r := by
  rw [mapM_forall₂, List.forall₂_iff_get]
  refine ⟨hl.symm, fun i hi hi' => ?_⟩
  simp only [List.get_eq_getElem]
  rw [hg i hi, List.getElem?_eq_getElem hi']

omit [Field K] [LinearOrder K] [IsStrictOrderedRing K] [FloorRing K] in
theorem sum_getD (l : List Nat) : ∑ i ∈ range l.length, l.getD i 0 = l.sum := by
  induction l with
  | nil => simp
  | cons x l ih =>
    rw [List.length_cons, Finset.sum_range_succ', List.sum_cons, ← ih, add_comm]
    simp

/-! ### Totals -/

theorem kappaDos_other (k : KdosInput K) (isI isI' : Bool) (r : List K × (Nat → K))
    (h : kappaDos k isI = some r) (p : Nat → Nat → K) :
    ∃ kd, kappaDos { k with modeKappa := p } isI' = some (r.1, kd) := by
  unfold kappaDos at h ⊢
  obtain ⟨pts, h1, h⟩ := Option.bind_eq_some_iff.1 h
  obtain ⟨map, h2, h⟩ := Option.bind_eq_some_iff.1 h
  have h1' : kdosPoints { k with modeKappa := p } = some pts := h1
  rw [h1', Option.bind_some]
  rw [h2, Option.bind_some]
  simp only [Option.some.injEq] at h
  subst h
  exact ⟨_, rfl⟩

theorem collect_facts (a : KaccumArgs K) (f : KaccumFile K)
    (g : KaccumGrid K) (d : KaccumData K) (b : BZInput K) (init : BZGridOut) (hf : FileFits f)
    (hg : GridMade g b init) (h : kaccumCollect a f g = some d) :
    (d.irPoints.getD (List.range d.rows)).length = d.rows ∧
      d.frequencies.length = d.rows * f.numBand ∧ d.weights.length = d.rows ∧
      d.temperatures = f.temperatures.getD [0] ∧
      ∀ w, f.weight = some w → d.rows = f.numGp ∧ d.weights = w := by
  have hz : ∀ l : List K, (zeroImaginary l).length = l.length := by
    intro l
    unfold zeroImaginary
    split <;> simp
  have ht : ∀ (r : List Nat), (takeRows f.numBand f.frequency r).length = r.length * f.numBand := by
    intro r
    simp [takeRows, List.length_flatMap]
  have htemp : (match f.temperatures with | some t => t | none => [0]) =
      f.temperatures.getD [0] := by
    cases f.temperatures <;> rfl
  have hread : (kaccumRead a f).1.length = (kaccumRead a f).2.2.2 * f.numBand ∧
      (kaccumRead a f).2.1.length = (kaccumRead a f).2.2.2 := by
    unfold kaccumRead
    split
    · rename_i w hw
      exact ⟨hf.frequency, hf.weight w hw⟩
    · split
      · rename_i w hw _
        exact ⟨ht _, hf.irWeights w hw⟩
      · exact ⟨hf.frequency, by simp⟩
  have hwt : ∀ w, f.weight = some w →
      (kaccumRead a f).2.2.2 = f.numGp ∧ (kaccumRead a f).2.1 = w := by
    intro w hw
    unfold kaccumRead
    rw [hw]
    exact ⟨rfl, rfl⟩
  unfold kaccumCollect at h
  rcases hr : kaccumRead a f with ⟨freqs, w, gp, rows⟩
  rw [hr] at hread h hwt
  simp only at hread h hwt
  split at h
  · simp only [Option.some.injEq] at h
    subst h
    exact ⟨by simp, by simp [hz, hread.1], hread.2, htemp, hwt⟩
  · split at h
    · rename_i hag
      simp only [Option.some.injEq] at h
      subst h
      refine ⟨?_, by simp [hz, hread.1], hread.2, htemp, hwt⟩
      have hw : w = g.irWeights := by
        unfold kaccumGridAgrees at hag
        simp only [Bool.and_eq_true, beq_iff_eq] at hag
        exact hag.1.1
      simp only [Option.getD_some]
      rw [hg.ir, ← hw, hread.2]
    · simp at h

/-- A spectrum has the number of points asked for and ends at the total of the modes. -/
theorem spectrum_total (g : KaccumGrid K) (d : KaccumData K)
    (b : BZInput K) (init : BZGridOut) (hg : GridMade g b init) (numBand nsp : Nat) (x : List K)
    (hir : (d.irPoints.getD (List.range d.rows)).length = d.rows)
    (hx : x.length = d.rows * numBand) (hn : 2 ≤ nsp) (hm : 0 < g.margin)
    (prop : Nat → Nat → Nat → K) (s : KaccumSpectrum K)
    (h : kaccumSpectrum g d numBand nsp x prop = some s) :
    s.points.length = nsp ∧ ∀ e, s.value false e (nsp - 1) =
      (∑ i ∈ range d.rows, ∑ l ∈ range numBand, prop i l e) / ((g.D.x * g.D.y * g.D.z : Int) : K) := by
  unfold kaccumSpectrum at h
  split at h
  · obtain ⟨r, hr, h⟩ := Option.bind_eq_some_iff.1 h
    simp only [Option.some.injEq] at h
    subst h
    have hk : ∀ p : Nat → Nat → K, KdosGrid (kaccumKdos g d numBand nsp x p) b init := fun p =>
      { mesh := hg.mesh
        lattice := hg.lattice
        grid := hg.grid
        D := hg.D
        table := hg.table
        values := by
          change x.length = (d.irPoints.getD (List.range d.rows)).length * numBand
          rw [hir, hx] }
    refine ⟨(C43_last _ b init (hk _) r.1 r.2 hr rfl hn hm).1, fun e => ?_⟩
    obtain ⟨kd, hkd⟩ := kappaDos_other _ false false r hr fun i l => prop i l e
    have hkd' : kappaDos (kaccumKdos g d numBand nsp x fun i l => prop i l e) false =
        some (r.1, kd) := hkd
    simp only [hkd', Option.map_some, Option.getD_some]
    refine ((C43_last _ b init (hk fun i l => prop i l e) r.1 kd hkd' rfl hn hm).2).trans ?_
    change (∑ i ∈ range (d.irPoints.getD (List.range d.rows)).length, ∑ l ∈ range numBand,
      prop i l e * ((1 : Nat) : K)) / _ = _
    rw [hir]
    simp only [Nat.cast_one, mul_one]
    rfl
  · simp at h

/-- What the last row of a block for a tensor shows, for the total `T e` of element `e`. -/
def lastTensorRow (a : KaccumArgs K) (rows : List (K × List K × List K)) (T : Nat → K) : Prop :=
  rows.length = a.nsp ∧ ∃ x deriv,
    rows[a.nsp - 1]? = some (x,
      (if a.average then [(T 0 + T 1 + T 2) / 3] else if a.trace then [T 0 + T 1 + T 2]
        else [T 0, T 1, T 2, T 3, T 4, T 5]), deriv)

theorem lastTensorRow_of (a : KaccumArgs K) (s : KaccumSpectrum K) (T : Nat → K)
    (hn : 2 ≤ a.nsp) (hl : s.points.length = a.nsp) (hT : ∀ e, s.value false e (a.nsp - 1) = T e) :
    lastTensorRow a (tensorRows a s) T := by
  refine ⟨by simp [tensorRows, hl], s.points.getD (a.nsp - 1) 0,
    tensorColumns a fun e => s.value true e (a.nsp - 1), ?_⟩
  unfold tensorRows
  rw [List.getElem?_map, List.getElem?_range (by omega)]
  simp only [Option.map_some, tensorColumns, hT]
  rfl

/-- C154 (conductivity): without a temperature, the blocks printed are labelled with the
temperatures of the file in order, one for every temperature of the conductivity (with `--mfp`: of
the linewidths); each has the number of rows asked for, and its last row is the sum of the mode
contributions of the file at that temperature over the number of points of the mesh, for every
element, or their average or trace as asked. -/
theorem C154_kappa (sqrt : K → K) (pi : K) (a : KaccumArgs K)
    (f : KaccumFile K) (g : KaccumGrid K) (b : BZInput K) (init : BZGridOut) (hf : FileFits f)
    (hg : GridMade g b init) (hs : scalarOption a = false) (hgv : a.gv = false)
    (ht : a.temperature = none) (hn : 2 ≤ a.nsp) (hm : 0 < g.margin) (w : List Nat)
    (hfw : f.weight = some w)
    (mk : List (Nat → Nat → Nat → K)) (hmk : f.modeKappa = some mk) (ts : List K)
    (hts : f.temperatures = some ts) (blocks : List (KaccumBlock K))
    (h : kaccumMain sqrt pi a f g = some blocks) :
    (a.mfp = false → blocks.length = mk.length) ∧
      (∀ gs, a.mfp = true → f.meanFreePath = none → f.gamma = some gs →
        blocks.length = gs.length) ∧
      ∀ j, j < blocks.length → ∃ blk k, blocks[j]? = some blk ∧ mk[j]? = some k ∧
        (∃ t, ts[j]? = some t ∧ blk.label = some t) ∧
        lastTensorRow a blk.rows fun e =>
          (∑ i ∈ range f.numGp, ∑ l ∈ range f.numBand, k i l e) /
            ((g.D.x * g.D.y * g.D.z : Int) : K) := by
  unfold kaccumMain at h
  obtain ⟨d, hd, h⟩ := Option.bind_eq_some_iff.1 h
  obtain ⟨hir, hfr, hw, htemp, hwt⟩ := collect_facts a f g d b init hf hg hd
  have hs' : (a.gamma || a.gruneisen || a.pqj || a.cv || a.tau || a.gvNorm || a.dos) = false := hs
  rw [hs'] at h
  simp only [Bool.false_eq_true, if_false] at h
  rw [← (hwt w hfw).1]
  have hshow : ∀ (sp : List (KaccumSpectrum K)), showTensor a d.temperatures sp = some blocks →
      blocks.length = sp.length ∧ ∀ j, j < blocks.length → ∃ s, sp[j]? = some s ∧
        ∃ blk, blocks[j]? = some blk ∧ (∃ t, ts[j]? = some t ∧ blk.label = some t) ∧
          blk.rows = tensorRows a s := by
    intro sp hsp
    unfold showTensor at hsp
    obtain ⟨h1, h2⟩ := mapM_get _ _ _ hsp
    rw [List.length_range] at h1
    refine ⟨h1, fun j hj => ?_⟩
    have h3 := h2 j (by rw [List.length_range]; omega)
    rw [List.getElem_range] at h3
    have hjs : j < sp.length := by omega
    rw [List.getElem?_eq_getElem hjs, List.getElem?_eq_getElem hj, Option.bind_some, hgv] at h3
    simp only [Bool.false_eq_true, if_false] at h3
    obtain ⟨t, h4, h5⟩ := Option.bind_eq_some_iff.1 h3
    simp only [Option.some.injEq] at h5
    refine ⟨sp[j], List.getElem?_eq_getElem hjs, blocks[j], List.getElem?_eq_getElem hj, ?_, ?_⟩
    · rw [← h5]
      rw [htemp, hts] at h4
      exact ⟨t, h4, rfl⟩
    · rw [← h5]
  unfold kaccumTensor at h
  obtain ⟨prop, hp, h⟩ := Option.bind_eq_some_iff.1 h
  have hprop : prop = mk := by
    unfold kaccumTensorProperty at hp
    rw [hgv, hmk] at hp
    simpa using hp.symm
  subst hprop
  rw [ht, hgv] at h
  cases hmf : a.mfp
  · rw [hmf] at h
    simp only [Bool.false_eq_true, if_false, kaccumSelect, Option.bind_some] at h
    obtain ⟨sp, hsp, h⟩ := Option.bind_eq_some_iff.1 h
    unfold runPropDos at hsp
    obtain ⟨h1, h2⟩ := mapM_get _ _ _ hsp
    obtain ⟨h3, h4⟩ := hshow sp h
    refine ⟨fun _ => by omega, by simp, fun j hj => ?_⟩
    obtain ⟨s, hsj, blk, hb1, hb2, hb3⟩ := h4 j hj
    have hjp : j < prop.length := by omega
    have h5 := h2 j hjp
    rw [hsj] at h5
    obtain ⟨h6, h7⟩ := spectrum_total g d b init hg f.numBand a.nsp d.frequencies hir hfr hn hm _ s h5
    refine ⟨blk, prop[j], hb1, List.getElem?_eq_getElem hjp, hb2, ?_⟩
    rw [hb3]
    exact lastTensorRow_of a s _ hn h6 h7
  · rw [hmf] at h
    simp only [if_true, kaccumSelect, Option.bind_some] at h
    obtain ⟨mfp, hmfp, h⟩ := Option.bind_eq_some_iff.1 h
    obtain ⟨sp, hsp, h⟩ := Option.bind_eq_some_iff.1 h
    unfold runMfpDos at hsp
    obtain ⟨h1, h2⟩ := mapM_get _ _ _ hsp
    obtain ⟨h3, h4⟩ := hshow sp h
    rw [List.length_range, List.length_map] at h1
    refine ⟨by simp, fun gs _ hmn hgm => ?_, fun j hj => ?_⟩
    · unfold kaccumMfp at hmfp
      rw [hmn, hgm, Option.bind_some] at hmfp
      obtain ⟨v, _, hmfp⟩ := Option.bind_eq_some_iff.1 hmfp
      simp only [Option.some.injEq] at hmfp
      rw [h3, h1, ← hmfp, List.length_map]
    obtain ⟨s, hsj, blk, hb1, hb2, hb3⟩ := h4 j hj
    have h5 := h2 j (by rw [List.length_range, List.length_map]; omega)
    rw [hsj, List.getElem_range] at h5
    obtain ⟨k, hk, h5⟩ := Option.bind_eq_some_iff.1 h5
    have hxl : ((mfp.map fun m => flatModes d.rows f.numBand m).getD j []).length =
        d.rows * f.numBand := by
      rw [List.getD_eq_getElem _ _ (by rw [List.length_map]; omega), List.getElem_map]
      simp [flatModes, List.length_flatMap]
    obtain ⟨h6, h7⟩ := spectrum_total g d b init hg f.numBand a.nsp _ hir hxl hn hm _ s h5
    refine ⟨blk, k, hb1, hk, hb2, ?_⟩
    rw [hb3]
    exact lastTensorRow_of a s _ hn h6 h7

/-! ### Scalars -/

/-- The scalar property asked for, by temperature. -/
inductive ScalarAsked (pi : K) (a : KaccumArgs K) (f : KaccumFile K) :
    List (Nat → Nat → K) → Prop
  | cv (l) : a.cv = true → f.heatCapacity = some l → ScalarAsked pi a f l
  | tau (l) : a.cv = false → a.tau = true → f.gamma = some l →
      ScalarAsked pi a f (l.map fun γ i b => if 0 < γ i b then 1 / (4 * pi * γ i b) else 0)
  | gamma (l) : a.cv = false → a.tau = false → a.gamma = true → f.gamma = some l →
      ScalarAsked pi a f l

theorem scalar_property (sqrt : K → K) (pi : K) (a : KaccumArgs K) (f : KaccumFile K)
    (hp : a.pqj = false) (hv : a.gvNorm = false) (prop : List (Nat → Nat → K))
    (h : ScalarAsked pi a f prop) : kaccumModeProperty sqrt pi a f = some prop := by
  unfold kaccumModeProperty
  rw [hp, hv]
  cases h with
  | cv l h1 h2 => simp [h1, h2]
  | tau l h1 h2 h3 =>
    simp only [h1, h2, h3, Bool.false_eq_true, if_false, if_true, Option.map_some]
    congr 2
    funext γ i b
    congr 3
    ring
  | gamma l h1 h2 h3 h4 => simp [h1, h2, h3, h4]

/-- What the last row of a block for a scalar shows. -/
def lastScalarRow (a : KaccumArgs K) (rows : List (K × List K × List K)) (T : K) : Prop :=
  rows.length = a.nsp ∧ ∃ x deriv, rows[a.nsp - 1]? = some (x, [T], [deriv])

theorem lastScalarRow_of (a : KaccumArgs K) (s : KaccumSpectrum K) (T : K)
    (hn : 2 ≤ a.nsp) (hl : s.points.length = a.nsp) (hT : s.value false 0 (a.nsp - 1) = T) :
    lastScalarRow a (scalarRows s) T := by
  refine ⟨by simp [scalarRows, hl], s.points.getD (a.nsp - 1) 0, s.value true 0 (a.nsp - 1), ?_⟩
  unfold scalarRows
  rw [List.getElem?_map, List.getElem?_range (by omega)]
  simp only [Option.map_some, hT]

theorem scalar_blocks (a : KaccumArgs K) (f : KaccumFile K) (g : KaccumGrid K)
    (d : KaccumData K) (b : BZInput K) (init : BZGridOut) (hg : GridMade g b init)
    (hir : (d.irPoints.getD (List.range d.rows)).length = d.rows)
    (hfr : d.frequencies.length = d.rows * f.numBand)
    (hp : a.pqj = false) (hgr : a.gruneisen = false) (hv : a.gvNorm = false)
    (hn : 2 ≤ a.nsp) (hm : 0 < g.margin) (prop : List (Nat → Nat → K)) (ts : List K)
    (blocks : List (KaccumBlock K)) (h : (runPropDos g d f.numBand a.nsp
        (prop.map fun p i b _ => p i b * ((d.weights.getD i 0 : Nat) : K))).bind
          (showScalar a ts) = some blocks) :
    blocks.length = prop.length ∧ ∀ j, j < blocks.length → ∃ blk p, blocks[j]? = some blk ∧
      prop[j]? = some p ∧ (∃ t, ts[j]? = some t ∧ blk.label = some t) ∧
      lastScalarRow a blk.rows
        ((∑ i ∈ range d.rows, ((d.weights.getD i 0 : Nat) : K) * ∑ l ∈ range f.numBand, p i l) /
          ((g.D.x * g.D.y * g.D.z : Int) : K)) := by
  obtain ⟨sp, hsp, h⟩ := Option.bind_eq_some_iff.1 h
  unfold runPropDos at hsp
  obtain ⟨h1, h2⟩ := mapM_get _ _ _ hsp
  rw [List.length_map] at h1
  unfold showScalar at h
  rw [hp, hgr, hv] at h
  simp only [Bool.or_self, Bool.false_eq_true, if_false] at h
  obtain ⟨h3, h4⟩ := mapM_get _ _ _ h
  rw [List.length_range] at h3
  refine ⟨by omega, fun j hj => ?_⟩
  have h5 := h4 j (by rw [List.length_range]; omega)
  rw [List.getElem_range] at h5
  have hjs : j < sp.length := by omega
  have hjp : j < prop.length := by omega
  rw [List.getElem?_eq_getElem hjs, List.getElem?_eq_getElem hj, Option.bind_some] at h5
  obtain ⟨t, h6, h7⟩ := Option.bind_eq_some_iff.1 h5
  simp only [Option.some.injEq] at h7
  have h8 := h2 j (by rw [List.length_map]; omega)
  rw [List.getElem_map, List.getElem?_eq_getElem hjs] at h8
  obtain ⟨h9, h10⟩ := spectrum_total g d b init hg f.numBand a.nsp d.frequencies hir hfr hn hm _ _ h8
  refine ⟨blocks[j], prop[j], List.getElem?_eq_getElem hj, List.getElem?_eq_getElem hjp,
    ⟨t, h6, by rw [← h7]⟩, ?_⟩
  rw [← h7]
  refine lastScalarRow_of a _ _ hn h9 ((h10 0).trans ?_)
  congr 1
  refine Finset.sum_congr rfl fun i _ => ?_
  rw [Finset.mul_sum]
  exact Finset.sum_congr rfl fun l _ => mul_comm _ _

/-- C154 (linewidths, heat capacities, lifetimes): without a temperature, one block is printed for
every temperature, labelled with it; its last row is the sum over the irreducible points of the
file, each as often as its weight, and bands of the property, over the number of points. Missing from the full claim: `--pqj`, `--gruneisen` and
`--gv-norm` (`C154_scalar_raises`). -/
theorem C154_scalar_partial (sqrt : K → K) (pi : K) (a : KaccumArgs K)
    (f : KaccumFile K) (g : KaccumGrid K) (b : BZInput K) (init : BZGridOut) (hf : FileFits f)
    (hg : GridMade g b init) (hp : a.pqj = false) (hgr : a.gruneisen = false)
    (hv : a.gvNorm = false) (ht : a.temperature = none) (hn : 2 ≤ a.nsp) (hm : 0 < g.margin)
    (w : List Nat) (hfw : f.weight = some w) (prop : List (Nat → Nat → K))
    (hprop : ScalarAsked pi a f prop) (ts : List K) (hts : f.temperatures = some ts)
    (blocks : List (KaccumBlock K)) (h : kaccumMain sqrt pi a f g = some blocks) :
    blocks.length = prop.length ∧ ∀ j, j < blocks.length → ∃ blk p, blocks[j]? = some blk ∧
      prop[j]? = some p ∧ (∃ t, ts[j]? = some t ∧ blk.label = some t) ∧
      lastScalarRow a blk.rows
        ((∑ i ∈ range f.numGp, ((w.getD i 0 : Nat) : K) * ∑ l ∈ range f.numBand, p i l) /
          ((g.D.x * g.D.y * g.D.z : Int) : K)) := by
  unfold kaccumMain at h
  obtain ⟨d, hd, h⟩ := Option.bind_eq_some_iff.1 h
  obtain ⟨hir, hfr, _, htemp, hwt⟩ := collect_facts a f g d b init hf hg hd
  have hs : (a.gamma || a.gruneisen || a.pqj || a.cv || a.tau || a.gvNorm || a.dos) = true := by
    cases hprop with
    | cv l h1 _ => simp [h1]
    | tau l _ h1 _ => simp [h1]
    | gamma l _ _ h1 _ => simp [h1]
  rw [hs, if_pos rfl] at h
  unfold kaccumScalar at h
  rw [scalar_property sqrt pi a f hp hv prop hprop, Option.bind_some, ht] at h
  simp only [ite_self, kaccumSelect, Option.bind_some] at h
  rw [htemp, hts, Option.getD_some] at h
  have h1 := scalar_blocks a f g d b init hg hir hfr hp hgr hv hn hm prop ts blocks h
  rw [(hwt w hfw).1, (hwt w hfw).2] at h1
  exact h1

/-- C154 (density of states): `--dos` prints one block, whatever temperature is asked for; its last
row is the number of bands when the weights add up to the number of points. -/
theorem C154_dos (sqrt : K → K) (pi : K) (a : KaccumArgs K)
    (f : KaccumFile K) (g : KaccumGrid K) (b : BZInput K) (init : BZGridOut) (hf : FileFits f)
    (hg : GridMade g b init) (hp : a.pqj = false) (hgr : a.gruneisen = false)
    (hv : a.gvNorm = false) (hcv : a.cv = false) (htau : a.tau = false) (hga : a.gamma = false)
    (hdos : a.dos = true) (hn : 2 ≤ a.nsp) (hm : 0 < g.margin)
    (w : List Nat) (hfw : f.weight = some w) (hsum : (w.sum : Int) = g.D.x * g.D.y * g.D.z)
    (blocks : List (KaccumBlock K)) (h : kaccumMain sqrt pi a f g = some blocks) :
    ∃ blk, blocks = [blk] ∧ lastScalarRow a blk.rows (f.numBand : K) := by
  unfold kaccumMain at h
  obtain ⟨d, hd, h⟩ := Option.bind_eq_some_iff.1 h
  obtain ⟨hir, hfr, hwl, htemp, hwt⟩ := collect_facts a f g d b init hf hg hd
  rw [show (a.gamma || a.gruneisen || a.pqj || a.cv || a.tau || a.gvNorm || a.dos) = true by
    simp [hdos], if_pos rfl] at h
  unfold kaccumScalar at h
  have hmp : kaccumModeProperty sqrt pi a f = some [fun _ _ => 1] := by
    unfold kaccumModeProperty
    simp [hp, hgr, hv, hcv, htau, hga, hdos]
  rw [hmp, Option.bind_some, hdos] at h
  simp only [Bool.or_true, if_true, kaccumSelect, Option.bind_some] at h
  obtain ⟨h1, h2⟩ := scalar_blocks a f g d b init hg hir hfr hp hgr hv hn hm _ _ blocks h
  obtain ⟨blk, hb⟩ := List.length_eq_one_iff.1 h1
  subst hb
  obtain ⟨blk', p, h3, h4, _, h5⟩ := h2 0 (by simp)
  simp only [List.getElem?_cons_zero, Option.some.injEq] at h3 h4
  subst h3 h4
  refine ⟨blk, rfl, ?_⟩
  have hD := hg.mesh
  have hN : ((g.D.x * g.D.y * g.D.z : Int) : K) ≠ 0 := by
    rw [hg.D]
    obtain ⟨h1, h2, h3⟩ := hD
    have : (0 : Int) < b.D.x * b.D.y * b.D.z := by positivity
    exact_mod_cast this.ne'
  have : (∑ i ∈ range d.rows, ((d.weights.getD i 0 : Nat) : K) *
      ∑ l ∈ range f.numBand, (1 : K)) / ((g.D.x * g.D.y * g.D.z : Int) : K) = f.numBand := by
    rw [← Finset.sum_mul, Finset.sum_const, Finset.card_range, nsmul_eq_mul, mul_one]
    have hs : ∑ i ∈ range d.rows, ((d.weights.getD i 0 : Nat) : K) =
        ((g.D.x * g.D.y * g.D.z : Int) : K) := by
      rw [← hsum, (hwt w hfw).2, ← hwl, (hwt w hfw).2]
      rw [← Nat.cast_sum, Int.cast_natCast]
      congr 1
      exact sum_getD w
    rw [hs]
    field_simp
  rwa [this] at h5

/-! ### The temperature asked for -/

/-- `i` is the first of the temperatures within `1e-8` of `t`. -/
structure FirstNear (ts : List K) (t : K) (i : Nat) : Prop where
  index : i < ts.length
  near : ∃ T, ts[i]? = some T ∧ |T - t| < 1 / 10 ^ 8
  first : ∀ j T, j < i → ts[j]? = some T → ¬ |T - t| < 1 / 10 ^ 8

theorem tTarget_some (ts : List K) (t : K) (i : Nat) (h : FirstNear ts t i) :
    tTarget ts t = some i := by
  unfold tTarget
  rw [List.find?_range_eq_some]
  obtain ⟨T, hT, hn⟩ := h.near
  refine ⟨?_, List.mem_range.2 h.index, fun j hj => ?_⟩
  · rw [List.getD_eq_getElem?_getD, hT]
    simpa [show (10 : K) ^ 8 = 100000000 by norm_num] using hn
  · have hjl : j < ts.length := by have := h.index; omega
    have h1 := h.first j ts[j] hj (List.getElem?_eq_getElem hjl)
    rw [List.getD_eq_getElem _ _ hjl]
    simpa [show (10 : K) ^ 8 = 100000000 by norm_num] using h1

theorem tTarget_none (ts : List K) (t : K) (h : ∀ T ∈ ts, ¬ |T - t| < 1 / 10 ^ 8) :
    tTarget ts t = none := by
  unfold tTarget
  rw [List.find?_eq_none]
  intro j hj
  rw [List.mem_range] at hj
  have h1 := h ts[j] (List.getElem_mem hj)
  rw [List.getD_eq_getElem _ _ hj]
  simpa [show (10 : K) ^ 8 = 100000000 by norm_num] using h1

omit [Field K] [LinearOrder K] [IsStrictOrderedRing K] [FloorRing K] in
theorem pySliceOne_get {α : Type _} (l : List α) (i : Nat) (hi : i < l.length) :
    pySliceOne i l = [l[i]] := by
  unfold pySliceOne
  rw [List.drop_eq_getElem_cons hi]
  rfl

theorem show_one (a a' : KaccumArgs K) (ts : List K) (sp : List (KaccumSpectrum K))
    (blocks : List (KaccumBlock K)) (hgv : a.gv = false) (hgv' : a'.gv = false)
    (hrows : ∀ s, tensorRows a s = tensorRows a' s)
    (h : showTensor a ts sp = some blocks) (i : Nat) (hi : i < blocks.length)
    (hs : i < sp.length) (ht : i < ts.length) :
    showTensor a' [ts[i]] [sp[i]] = some [blocks[i]] := by
  unfold showTensor at h
  obtain ⟨h1, h2⟩ := mapM_get _ _ _ h
  have h3 := h2 i (by rw [List.length_range]; exact hs)
  rw [List.getElem_range, List.getElem?_eq_getElem hs, List.getElem?_eq_getElem ht,
    List.getElem?_eq_getElem hi, hgv] at h3
  simp only [Option.bind_some, Bool.false_eq_true, if_false, hrows] at h3
  unfold showTensor
  simp [List.range_succ, hgv', h3]

/-- C154 (a temperature): with `--temperature`, exactly the block is printed that a run without it
prints for the first temperature of the file within `1e-8` of it. -/
theorem C154_temperature (sqrt : K → K) (pi : K) (a : KaccumArgs K) (f : KaccumFile K)
    (g : KaccumGrid K) (hgv : a.gv = false)
    (hno : (a.gvNorm || a.pqj || a.gruneisen || a.dos) = false)
    (ts : List K) (hts : f.temperatures = some ts) (t : K) (i : Nat) (hi : FirstNear ts t i)
    (blocks : List (KaccumBlock K))
    (h : kaccumMain sqrt pi { a with temperature := none } f g = some blocks)
    (blk : KaccumBlock K) (hb : blocks[i]? = some blk) :
    kaccumMain sqrt pi { a with temperature := some t } f g = some [blk] := by
  have hil := hi.index
  have hbl : i < blocks.length := by
    by_contra hc
    rw [List.getElem?_eq_none (by omega)] at hb
    simp at hb
  rw [List.getElem?_eq_getElem hbl, Option.some.injEq] at hb
  subst hb
  have hno' : a.gvNorm = false ∧ a.pqj = false ∧ a.gruneisen = false ∧ a.dos = false := by
    simpa [Bool.or_eq_false_iff, and_assoc] using hno
  obtain ⟨hv, hp, hgr, hdos⟩ := hno'
  unfold kaccumMain at h ⊢
  obtain ⟨d, hd, h⟩ := Option.bind_eq_some_iff.1 h
  have hd' : kaccumCollect { a with temperature := some t } f g = some d := hd
  rw [hd', Option.bind_some]
  have htemp : d.temperatures = ts := by
    unfold kaccumCollect at hd
    rw [hts] at hd
    rcases hr : kaccumRead { a with temperature := none } f with ⟨freqs, w, gp, rows⟩
    rw [hr] at hd
    simp only at hd
    split at hd
    · simp only [Option.some.injEq] at hd
      rw [← hd]
    · split at hd
      · simp only [Option.some.injEq] at hd
        rw [← hd]
      · simp at hd
  have hsel : ∀ {α : Type _} (l : List α) (hl : i < l.length),
      kaccumSelect (some t) d.temperatures l = some ([ts[i]], [l[i]]) := by
    intro α l hl
    simp only [kaccumSelect]
    rw [htemp, tTarget_some ts t i hi, Option.bind_some, pySliceOne_get ts i hil,
      pySliceOne_get l i hl]
  split at h
  · rename_i hs
    rw [if_pos hs]
    unfold kaccumScalar at h ⊢
    obtain ⟨prop, hprop, h⟩ := Option.bind_eq_some_iff.1 h
    have hprop' : kaccumModeProperty sqrt pi { a with temperature := some t } f = some prop := hprop
    rw [hprop', Option.bind_some]
    simp only [ite_self, kaccumSelect, Option.bind_some] at h
    obtain ⟨sp, hsp, h⟩ := Option.bind_eq_some_iff.1 h
    unfold runPropDos at hsp
    obtain ⟨h1, h2⟩ := mapM_get _ _ _ hsp
    rw [List.length_map] at h1
    unfold showScalar at h
    simp only [hp, hgr, hv, Bool.or_self, Bool.false_eq_true, if_false] at h
    obtain ⟨h3, h4⟩ := mapM_get _ _ _ h
    rw [List.length_range] at h3
    have his : i < sp.length := by omega
    have hip : i < prop.length := by omega
    have h5 := h4 i (by rw [List.length_range]; exact his)
    rw [List.getElem_range, List.getElem?_eq_getElem his, htemp, List.getElem?_eq_getElem hil,
      List.getElem?_eq_getElem hbl] at h5
    simp only [Option.bind_some] at h5
    have h6 := h2 i (by rw [List.length_map]; exact hip)
    rw [List.getElem_map, List.getElem?_eq_getElem his] at h6
    simp only [hp, hgr, hv, hdos, Bool.or_self, Bool.false_eq_true, if_false]
    rw [hsel prop hip, Option.bind_some]
    have h7 : runPropDos g d f.numBand a.nsp ([prop[i]].map fun p i b _ =>
        p i b * ((d.weights.getD i 0 : Nat) : K)) = some [sp[i]] := by
      unfold runPropDos
      rw [List.map_singleton, List.mapM_cons, h6]
      rfl
    simp only [h7, Option.bind_some]
    unfold showScalar
    simp [hp, hgr, hv, List.range_succ, h5]
  · rename_i hs
    rw [if_neg hs]
    unfold kaccumTensor at h ⊢
    obtain ⟨prop, hprop, h⟩ := Option.bind_eq_some_iff.1 h
    have hprop' : kaccumTensorProperty { a with temperature := some t } f g = some prop := hprop
    rw [hprop', Option.bind_some]
    cases hmf : a.mfp
    · simp only [hmf, hgv, Bool.false_eq_true, if_false, kaccumSelect, Option.bind_some] at h
      obtain ⟨sp, hsp, h⟩ := Option.bind_eq_some_iff.1 h
      have hsp0 := hsp
      unfold runPropDos at hsp
      obtain ⟨h1, h2⟩ := mapM_get _ _ _ hsp
      have h3 : blocks.length = sp.length := by
        unfold showTensor at h
        have := (mapM_get _ _ _ h).1
        rwa [List.length_range] at this
      have his : i < sp.length := by omega
      have hip : i < prop.length := by omega
      have h6 := h2 i hip
      rw [List.getElem?_eq_getElem his] at h6
      simp only [hgv, Bool.false_eq_true, if_false]
      rw [hsel prop hip, Option.bind_some]
      have h7 : runPropDos g d f.numBand a.nsp [prop[i]] = some [sp[i]] := by
        unfold runPropDos
        simp [h6]
      simp only [h7, Option.bind_some]
      have hsh : showTensor { a with temperature := none } ts sp = some blocks := by
        rw [← h, htemp]
        congr 1
        cases a
        simp_all
      have hone := show_one { a with temperature := none } { a with temperature := some t } ts sp
        blocks hgv hgv (fun _ => rfl) hsh i hbl his hil
      simpa only [hgv, hmf] using hone
    · simp only [hmf, if_true, kaccumSelect, Option.bind_some] at h
      obtain ⟨mfp, hmfp, h⟩ := Option.bind_eq_some_iff.1 h
      obtain ⟨sp, hsp, h⟩ := Option.bind_eq_some_iff.1 h
      unfold runMfpDos at hsp
      obtain ⟨h1, h2⟩ := mapM_get _ _ _ hsp
      rw [List.length_range, List.length_map] at h1
      have h3 : blocks.length = sp.length := by
        unfold showTensor at h
        have := (mapM_get _ _ _ h).1
        rwa [List.length_range] at this
      have his : i < sp.length := by omega
      have him : i < mfp.length := by omega
      have h6 := h2 i (by rw [List.length_range, List.length_map]; exact him)
      rw [List.getElem?_eq_getElem his, List.getElem_range] at h6
      obtain ⟨p, hpi, h6⟩ := Option.bind_eq_some_iff.1 h6
      have hip : i < prop.length := by
        by_contra hc
        rw [List.getElem?_eq_none (by omega)] at hpi
        simp at hpi
      rw [List.getElem?_eq_getElem hip, Option.some.injEq] at hpi
      subst hpi
      rw [List.getD_eq_getElem _ _ (by rw [List.length_map]; exact him), List.getElem_map] at h6
      simp only [if_true]
      rw [hmfp, Option.bind_some, hsel prop hip, Option.bind_some, hsel mfp him, Option.bind_some]
      have h7 : runMfpDos g d f.numBand a.nsp
          ([mfp[i]].map fun m => flatModes d.rows f.numBand m) [prop[i]] = some [sp[i]] := by
        unfold runMfpDos
        simp [List.range_succ, h6]
      simp only [h7, Option.bind_some]
      have hsh : showTensor { a with temperature := none } ts sp = some blocks := by
        rw [← h, htemp]
        congr 1
        cases a
        simp_all
      have hone := show_one { a with temperature := none } { a with temperature := some t } ts sp
        blocks hgv hgv (fun _ => rfl) hsh i hbl his hil
      simpa only [hgv, hmf] using hone

/-- C154 (a temperature that is not there): when no temperature of the file is within `1e-8` of the
one asked for, nothing is printed and the command fails. -/
theorem C154_temperature_missing (sqrt : K → K) (pi : K) (a : KaccumArgs K) (f : KaccumFile K)
    (g : KaccumGrid K) (hgv : a.gv = false)
    (hno : (a.gvNorm || a.pqj || a.gruneisen || a.dos) = false)
    (t : K) (ht : a.temperature = some t)
    (hmiss : ∀ T ∈ f.temperatures.getD [0], ¬ |T - t| < 1 / 10 ^ 8) :
    kaccumMain sqrt pi a f g = none := by
  unfold kaccumMain
  cases hd : kaccumCollect a f g with
  | none => rfl
  | some d =>
    have htemp : d.temperatures = f.temperatures.getD [0] := by
      have e : (match f.temperatures with | some t => t | none => [0]) =
        f.temperatures.getD [0] := by cases f.temperatures <;> rfl
      unfold kaccumCollect at hd
      rcases hr : kaccumRead a f with ⟨freqs, w, gp, rows⟩
      rw [hr] at hd
      simp only at hd
      split at hd
      · simp only [Option.some.injEq] at hd
        rw [← hd]
        exact e
      · split at hd
        · simp only [Option.some.injEq] at hd
          rw [← hd]
          exact e
        · simp at hd
    have hsel : ∀ {α : Type _} (l : List α), kaccumSelect (some t) d.temperatures l = none := by
      intro α l
      simp only [kaccumSelect]
      rw [htemp, tTarget_none _ t hmiss, Option.bind_none]
    rw [Option.bind_some]
    split
    · unfold kaccumScalar
      cases kaccumModeProperty sqrt pi a f with
      | none => rfl
      | some prop =>
        rw [Option.bind_some, hno, ht]
        simp only [Bool.false_eq_true, if_false]
        rw [hsel, Option.bind_none]
    · unfold kaccumTensor
      cases kaccumTensorProperty a f g with
      | none => rfl
      | some prop =>
        rw [Option.bind_some, hgv, ht]
        simp only [Bool.false_eq_true, if_false]
        split
        · cases kaccumMfp sqrt pi f with
          | none => rfl
          | some m => rw [Option.bind_some, hsel, Option.bind_none]
        · rw [hsel, Option.bind_none]

/-! ### Options that fail -/

/-- **C154, failure.** The options `--pqj`, `--gruneisen` and `--gv-norm` never print a result:
whatever the file, the command fails for two or more sampling points. -/
theorem C154_scalar_raises (sqrt : K → K) (pi : K) (a : KaccumArgs K)
    (f : KaccumFile K) (g : KaccumGrid K) (b : BZInput K) (init : BZGridOut) (hf : FileFits f)
    (hg : GridMade g b init) (ho : (a.pqj || a.gruneisen || a.gvNorm) = true)
    (hn : 2 ≤ a.nsp) (hm : 0 < g.margin) : kaccumMain sqrt pi a f g = none := by
  cases h : kaccumMain sqrt pi a f g with
  | none => rfl
  | some blocks =>
    exfalso
    unfold kaccumMain at h
    obtain ⟨d, hd, h⟩ := Option.bind_eq_some_iff.1 h
    obtain ⟨hir, hfr, _, _, _⟩ := collect_facts a f g d b init hf hg hd
    have hs : (a.gamma || a.gruneisen || a.pqj || a.cv || a.tau || a.gvNorm || a.dos) = true := by
      revert ho
      cases a.pqj <;> cases a.gruneisen <;> cases a.gvNorm <;> simp
    rw [hs, if_pos rfl] at h
    unfold kaccumScalar at h
    obtain ⟨prop, _, h⟩ := Option.bind_eq_some_iff.1 h
    obtain ⟨tp, _, h⟩ := Option.bind_eq_some_iff.1 h
    obtain ⟨sp, hsp, h⟩ := Option.bind_eq_some_iff.1 h
    unfold showScalar at h
    rw [if_pos ho] at h
    obtain ⟨s, hs0, h⟩ := Option.bind_eq_some_iff.1 h
    unfold runPropDos at hsp
    obtain ⟨h1, h2⟩ := mapM_get _ _ _ hsp
    have hl : 0 < sp.length := by
      by_contra hc
      rw [List.getElem?_eq_none (by omega)] at hs0
      simp at hs0
    have h3 := h2 0 (by omega)
    rw [hs0] at h3
    have h4 := (spectrum_total g d b init hg f.numBand a.nsp d.frequencies hir hfr hn hm _ s h3).1
    rw [if_neg (by omega)] at h
    simp at h

/-- **C154, failure.** `--gv --mfp` fails for every file with linewidths at two or more
temperatures. -/
theorem C154_gv_mfp_raises (sqrt : K → K) (pi : K) (a : KaccumArgs K)
    (f : KaccumFile K) (g : KaccumGrid K) (hs : scalarOption a = false) (hgv : a.gv = true)
    (hmf : a.mfp = true) (ht : a.temperature = none) (hmn : f.meanFreePath = none)
    (gs : List (Nat → Nat → K)) (hgm : f.gamma = some gs) (hl : 2 ≤ gs.length) :
    kaccumMain sqrt pi a f g = none := by
  cases h : kaccumMain sqrt pi a f g with
  | none => rfl
  | some blocks =>
    exfalso
    unfold kaccumMain at h
    obtain ⟨d, hd, h⟩ := Option.bind_eq_some_iff.1 h
    have hs' : (a.gamma || a.gruneisen || a.pqj || a.cv || a.tau || a.gvNorm || a.dos) = false := hs
    rw [hs'] at h
    simp only [Bool.false_eq_true, if_false] at h
    unfold kaccumTensor at h
    obtain ⟨prop, hp, h⟩ := Option.bind_eq_some_iff.1 h
    have hp1 : prop.length = 1 := by
      unfold kaccumTensorProperty at hp
      rw [hgv, if_pos rfl] at hp
      obtain ⟨v, _, hp⟩ := Option.map_eq_some_iff.1 hp
      rw [← hp]
      rfl
    rw [hmf, if_pos rfl, ht] at h
    obtain ⟨mfp, hmfp, h⟩ := Option.bind_eq_some_iff.1 h
    have hml : mfp.length = gs.length := by
      unfold kaccumMfp at hmfp
      rw [hmn, hgm, Option.bind_some] at hmfp
      obtain ⟨v, _, hmfp⟩ := Option.bind_eq_some_iff.1 hmfp
      simp only [Option.some.injEq] at hmfp
      rw [← hmfp, List.length_map]
    simp only [kaccumSelect, Option.bind_some] at h
    obtain ⟨sp, hsp, h⟩ := Option.bind_eq_some_iff.1 h
    unfold runMfpDos at hsp
    obtain ⟨h1, h2⟩ := mapM_get _ _ _ hsp
    rw [List.length_range, List.length_map] at h1
    have h3 := h2 1 (by rw [List.length_range, List.length_map]; omega)
    rw [List.getElem_range, List.getElem?_eq_none (l := prop) (by omega), Option.bind_none,
      List.getElem?_eq_getElem (by omega)] at h3
    simp at h3

/-- **C154, failure.** For a file without the mode contributions, such as those of the Wigner
transport equation, the command without options for other properties prints nothing. -/
theorem C154_no_mode_kappa (sqrt : K → K) (pi : K) (a : KaccumArgs K)
    (f : KaccumFile K) (g : KaccumGrid K) (hs : scalarOption a = false) (hgv : a.gv = false)
    (hk : f.modeKappa = none) : kaccumMain sqrt pi a f g = none := by
  unfold kaccumMain
  have hs' : (a.gamma || a.gruneisen || a.pqj || a.cv || a.tau || a.gvNorm || a.dos) = false := hs
  rw [hs']
  simp only [Bool.false_eq_true, if_false, kaccumTensor, kaccumTensorProperty, hgv, hk,
    Option.bind_none]
  cases kaccumCollect a f g <;> rfl

/-- **C154, failure.** With `--no-gridsym` and a file of all points of the BZ grid (as
`phonon-xxx.hdf5`), the density of states fails whenever the BZ grid has more points than the
regular grid. -/
theorem C154_no_gridsym_raises (sqrt : K → K) (pi : K) (a : KaccumArgs K)
    (f : KaccumFile K) (g : KaccumGrid K) (hsym : a.noGridsym = true) (hdos : a.dos = true)
    (hp : a.pqj = false) (hgr : a.gruneisen = false)
    (hv : a.gvNorm = false) (hcv : a.cv = false) (htau : a.tau = false) (hga : a.gamma = false)
    (hw : f.weight = none) (hl : g.grg2bzg.length < f.numGp) :
    kaccumMain sqrt pi a f g = none := by
  have hd : kaccumCollect a f g = some ⟨none, none, List.replicate f.numGp 1, f.numGp,
      zeroImaginary f.frequency, match f.temperatures with | some t => t | none => [0]⟩ := by
    unfold kaccumCollect
    have hr : kaccumRead a f = (f.frequency, List.replicate f.numGp 1, none, f.numGp) := by
      unfold kaccumRead
      rw [hw, hsym]
      cases f.irGridWeights <;> rfl
    rw [hr]
    simp only [hsym, Bool.true_or, if_true]
    cases f.temperatures <;> rfl
  unfold kaccumMain
  rw [hd, Option.bind_some]
  rw [show (a.gamma || a.gruneisen || a.pqj || a.cv || a.tau || a.gvNorm || a.dos) = true by
    simp [hdos], if_pos rfl]
  unfold kaccumScalar
  have hmp : kaccumModeProperty sqrt pi a f = some [fun _ _ => 1] := by
    unfold kaccumModeProperty
    simp [hp, hgr, hv, hcv, htau, hga, hdos]
  rw [hmp, Option.bind_some, hdos]
  simp only [Bool.or_true, if_true, kaccumSelect, Option.bind_some]
  have hnone : kaccumSpectrum g ⟨none, none, List.replicate f.numGp 1, f.numGp,
      zeroImaginary f.frequency, match f.temperatures with | some t => t | none => [0]⟩ f.numBand
      a.nsp (zeroImaginary f.frequency) (fun i _ _ => 1 *
        (((List.replicate f.numGp 1).getD i 0 : Nat) : K)) = none := by
    unfold kaccumSpectrum
    rw [if_neg]
    simp only [Option.getD_none, List.all_eq_true, decide_eq_true_eq, not_forall]
    exact ⟨g.grg2bzg.length, List.mem_range.2 hl, by simp⟩
  unfold runPropDos
  rw [List.map_singleton, List.mapM_cons, hnone]
  rfl

/-- **C154, failure.** The mean free path comes from the linewidths of phonon-phonon scattering
alone: it is longer than speed times lifetime for the total linewidth whenever another mechanism
contributes to the conductivity of the same file. -/
theorem C154_mfp_longer (sqrt : K → K) (pi : K) (hpi : 0 < pi) (γ γ' : Nat → Nat → K)
    (v : Nat → Nat → Nat → K) (i l : Nat) (hγ : 0 < γ i l) (hγ' : 0 < γ' i l)
    (hv : 0 < sqrt (v i l 0 ^ 2 + v i l 1 ^ 2 + v i l 2 ^ 2)) :
    sqrt (v i l 0 ^ 2 + v i l 1 ^ 2 + v i l 2 ^ 2) * (1 / (4 * pi * (γ i l + γ' i l))) <
      getMfp sqrt pi γ v i l := by
  unfold getMfp
  rw [if_pos hγ, div_eq_mul_one_div (sqrt _) (2 * 2 * pi * γ i l)]
  refine mul_lt_mul_of_pos_left ?_ hv
  apply one_div_lt_one_div_of_lt (by positivity)
  nlinarith

end

/-! ### Example -/

/-- The file of the example chain: three irreducible points, one band, two temperatures. -/
def exampleKaccumFile : KaccumFile ℚ where
  numGp := 3
  numBand := 1
  frequency := [0, 1, 2 - 1 / 100000000]
  temperatures := some [100, 300]
  weight := some [1, 2, 1]
  gridPoint := some [0, 1, 2]
  gamma := some [fun i _ => 1 + i, fun i _ => 2 + i]
  heatCapacity := some [fun i _ => 1 + i, fun i _ => 5 + i]
  groupVelocity := some fun i _ _ => i
  modeKappa := some [fun i _ e => 1 + i + e, fun i _ e => 2 + i + e]

def exampleKaccumGrid : KaccumGrid ℚ where
  D := ⟨4, 1, 1⟩
  bz := exampleChainBZ
  dense := true
  rel := (exampleKdos [0, 1, 2] 5).rel
  bzg2grg := [0, 1, 2, 2, 3]
  grg2bzg := [0, 1, 2, 4]
  irPoints := [0, 1, 2]
  irWeights := [1, 2, 1]
  irMap := [0, 1, 2, 1]
  qpointsAgree := true
  volume := 1
  eps := 1 / 10000000000
  margin := 1 / 100000000

example : FileFits exampleKaccumFile := ⟨rfl, by
  intro w hw
  cases hw
  rfl, by
  intro w hw
  cases hw⟩

example : GridMade exampleKaccumGrid exampleChain exampleInit where
  mesh := exampleKdos_grid.mesh
  lattice := exampleKdos_grid.lattice
  grid := exampleKdos_grid.grid
  D := rfl
  table := exampleKdos_grid.table
  ir := rfl

/-- The conductivity of the example at both temperatures: labels and last rows. -/
example : ((kaccumMain (K := ℚ) id 1 { nsp := 5 } exampleKaccumFile exampleKaccumGrid).map fun l =>
    l.map fun x => (x.label, x.rows.length, (x.rows.getD 4 default).1,
      (x.rows.getD 4 default).2.1)) =
    some [(some 100, 5, 2, [3 / 2, 9 / 4, 3, 15 / 4, 9 / 2, 21 / 4]),
      (some 300, 5, 2, [9 / 4, 3, 15 / 4, 9 / 2, 21 / 4, 6])] := by decide +kernel

/-- With `--temperature 300 --average`. -/
example : ((kaccumMain (K := ℚ) id 1 { nsp := 5, average := true, temperature := some 300 }
    exampleKaccumFile exampleKaccumGrid).map fun l =>
    l.map fun x => (x.label, x.rows.length, (x.rows.getD 4 default).2.1)) =
    some [(some 300, 5, [3])] := by decide +kernel

/-- Against mean free paths, heat capacities and the density of states. -/
example : (((kaccumMain (K := ℚ) id 1 { nsp := 5, mfp := true, trace := true }
    exampleKaccumFile exampleKaccumGrid).map fun l =>
    l.map fun x => (x.label, x.rows.length, (x.rows.getD 4 default).2.1)) =
    some [(some 100, 5, [27 / 4]), (some 300, 5, [9])]) := by decide +kernel

example : (((kaccumMain (K := ℚ) id 1 { nsp := 5, cv := true }
    exampleKaccumFile exampleKaccumGrid).map fun l =>
    l.map fun x => (x.label, x.rows.length, (x.rows.getD 4 default).2.1)) =
    some [(some 100, 5, [2]), (some 300, 5, [6])]) := by decide +kernel

example : (((kaccumMain (K := ℚ) id 1 { nsp := 5, dos := true }
    exampleKaccumFile exampleKaccumGrid).map fun l =>
    l.map fun x => (x.label, x.rows.length, (x.rows.getD 4 default).2.1)) =
    some [(some 100, 5, [1])]) := by decide +kernel

example : FirstNear ([100, 300] : List ℚ) 300 1 where
  index := by decide
  near := ⟨300, rfl, by norm_num⟩
  first := by
    intro j T hj hT
    obtain rfl : j = 0 := by omega
    simp only [List.getElem?_cons_zero, Option.some.injEq] at hT
    subst hT
    norm_num

example : ∀ T ∈ exampleKaccumFile.temperatures.getD [0], ¬ |T - 200| < 1 / 10 ^ 8 := by
  decide +kernel

end Phono3py.Props
