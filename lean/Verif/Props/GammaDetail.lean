/-
C168: files of triplet contributions written during a run in the relaxation time approximation.
-/
import Verif.Spec.GammaDetail
import Verif.Props.IseCode
import Verif.Props.Bands

set_option linter.unusedSectionVars false

namespace Phono3py.Props
open Phono3py Phono3py.Spec

/-! ### Which contributions a file holds -/

section
variable {P K S G Z A V E : Type} [DecidableEq Z]

theorem mapM_of_some {α β : Type} (f : α → Option β) (g : α → β) (l : List α)
    (h : ∀ a ∈ l, f a = some (g a)) : l.mapM f = some (l.map g) := by
  induction l with
  | nil => rfl
  | cons a l ih =>
    rw [List.mapM_cons, h a List.mem_cons_self, ih fun x hx => h x (List.mem_cons_of_mem _ hx)]
    rfl

theorem detailAttribute_last (detail : V → Nat → Nat → E) (rows : List (List V)) (row : List V)
    (old : Option (List (Nat → Nat → E))) :
    detailAttribute detail (rows ++ [row]) old = some (row.map detail) := by
  unfold detailAttribute
  rw [List.foldl_append]; rfl

/-- Calls that leave the triplets of the `Interaction` object alone. -/
theorem iseCall_triplets {env : IseEnv P K S G Z A V} {s u : IseObject P K S G Z V}
    {c : IseCall P K S Z A} (hc : ∀ p, c ≠ .setGridPoint (some p) ∧ c ≠ .otherObject p)
    (e : iseCall env s c = some u) : u.ppTriplets = s.ppTriplets := by
  cases c with
  | setGridPoint p =>
    cases p with
    | none => cases e; rfl
    | some p => exact absurd rfl (hc p).1
  | setSigma σ c => cases e; rfl
  | setFrequencyPoints f => cases e; rfl
  | setTemperature t => cases e; rfl
  | runInteraction b => obtain ⟨p, _, rfl⟩ := iseRunInteraction_eq e; rfl
  | runIntegrationWeights b => obtain ⟨p, c, q, _, _, _, rfl⟩ := iseRunWeights_eq e; rfl
  | setAveraged a =>
    cases ht : s.triplets with
    | none => simp only [iseCall, ht] at e; cases e
    | some p => simp only [iseCall, ht] at e; cases e; rfl
  | setStrength v z => cases e; rfl
  | deleteWeights => cases e; rfl
  | run => obtain ⟨v, g, p, t, _, _, _, _, rfl⟩ := iseRun_eq e; rfl
  | otherObject p => exact absurd rfl (hc p).2

theorem gammaTemperatures_triplets {env : IseEnv P K S G Z A V} (ts : List K) :
    ∀ {s : IseObject P K S G Z V} {r}, gammaTemperatures env ts s = some r →
      r.1.ppTriplets = s.ppTriplets := by
  induction ts with
  | nil => intro s r e; cases e; rfl
  | cons t ts ih =>
    intro s r e
    simp only [gammaTemperatures, bind, Option.bind_eq_some_iff] at e
    obtain ⟨s1, e1, s2, e2, v, _, q, e3, e4⟩ := e
    cases e4
    rw [ih e3, iseCall_triplets (by simp) e2, iseCall_triplets (by simp) e1]

theorem rtaStrengths_triplets {env : IseEnv P K S G Z A V} {o : GammaOptions P K S Z A} {p : P} {j : Nat}
    {sigma : Option K} {s : IseObject P K S G Z V} {ave : A} {r}
    (e : rtaStrengths env o p j sigma s ave = some r) : r.1.ppTriplets = s.ppTriplets := by
  unfold rtaStrengths at e
  split at e
  · simp only [bind, Option.bind_eq_some_iff] at e
    obtain ⟨f, _, e⟩ := e
    split at e
    · cases e
    · rw [Option.bind_eq_some_iff] at e
      obtain ⟨u, e1, e2⟩ := e
      cases e2
      exact iseCall_triplets (by simp) e1
  split at e
  · simp only [bind, Option.bind_eq_some_iff] at e
    obtain ⟨u, e1, e2⟩ := e
    cases e2
    exact iseCall_triplets (by simp) e1
  split at e
  · simp only [bind, Option.bind_eq_some_iff] at e
    obtain ⟨u, e1, v, _, e2⟩ := e
    cases e2
    exact iseCall_triplets (by simp) e1
  split at e
  · cases e; rfl
  · simp only [bind, Option.bind_eq_some_iff] at e
    obtain ⟨u, e1, v, _, e2⟩ := e
    cases e2
    exact iseCall_triplets (by simp) e1

theorem rtaSigmas_triplets {env : IseEnv P K S G Z A V} {o : GammaOptions P K S Z A} {p : P}
    (sigmas : List (Option K)) : ∀ {j : Nat} {s : IseObject P K S G Z V} {ave : A} {r},
    rtaSigmas env o p j sigmas s ave = some r → r.1.ppTriplets = s.ppTriplets := by
  induction sigmas with
  | nil => intro j s ave r e; cases e; rfl
  | cons sigma sigmas ih =>
    intro j s ave r e
    simp only [rtaSigmas, bind, Option.bind_eq_some_iff] at e
    obtain ⟨s1, e1, s2, e2, q, e3, v, e4, w, e5, e6⟩ := e
    cases e6
    rw [ih e5, gammaTemperatures_triplets _ e4, rtaStrengths_triplets e3, iseCall_triplets (by simp) e2,
      iseCall_triplets (by simp) e1]

theorem rtaGridPoint_triplets {env : IseEnv P K S G Z A V} {o : GammaOptions P K S Z A} {p : P}
    {s : IseObject P K S G Z V} {ave : A} {r} (e : rtaGridPoint env o p s ave = some r) :
    r.1.ppTriplets = some p := by
  unfold rtaGridPoint at e
  simp only [iseCall, bind, Option.bind] at e
  rw [rtaSigmas_triplets _ e]

/-- C168: a run that computes linewidths writes, for every grid point, every smearing width and all bands
together or every selected band, a file with the contributions at all temperatures **of the last smearing
width**, with the triplets of this grid point. The linewidths are those of each width. -/
theorem C168_last (env : IseEnv P K S G Z A V) (hskip : SkippingHarmless env)
    (o : GammaOptions P K S Z A) (hread : o.readPP = false) (have_ : o.useAverages = false)
    (hconst : o.constant = false) (detail : V → Nat → Nat → E) (known : Bool) (bands : List Nat)
    (allBands : Bool) (before : List (Option K)) (last : Option K) (hlast : o.sigmas = before ++ [last])
    (ps : List (P × A)) :
    ∀ (s : IseObject P K S G Z V) (old : Option (List (Nat → Nat → E))), s.points = none →
    rtaDetailRun env o detail known false bands allBands ps s old = some
      (ps.map fun p => o.sigmas.map fun sigma => o.temperatures.map fun t =>
        selfEnergyAt env p.1 none none sigma o.sigmaCutoff t,
      ps.flatMap fun p => o.sigmas.flatMap fun sigma => (detailBands bands allBands).map fun band =>
        detailFileOf env o detail last sigma p.1 band) := by
  induction ps with
  | nil => intro s old _; rfl
  | cons p ps ih =>
    intro s old hs
    obtain ⟨s', e, h⟩ := C147_gamma env hskip o hread have_ hconst p.1 s hs p.2
    have ht := rtaGridPoint_triplets e
    have hpoint : rtaDetailPoint env o detail known false p.1 s p.2 old = some (s',
        (o.sigmas.map fun sigma => o.temperatures.map fun t =>
          selfEnergyAt env p.1 none none sigma o.sigmaCutoff t),
        some (o.temperatures.map fun t =>
          detail (selfEnergyAt env p.1 none none last o.sigmaCutoff t))) := by
      unfold rtaDetailPoint
      rw [if_neg (by simp), if_pos (by simp [strengthsShown, have_]), e]
      simp only [bind, Option.bind]
      rw [hlast, List.map_append, List.map_singleton, detailAttribute_last, List.map_map]
      rfl
    have hfile : writeGammaDetail o bands allBands s'.ppTriplets p.1 (some (o.temperatures.map fun t =>
          detail (selfEnergyAt env p.1 none none last o.sigmaCutoff t))) =
        some (o.sigmas.flatMap fun sigma => (detailBands bands allBands).map fun band =>
          detailFileOf env o detail last sigma p.1 band) := by
      rw [ht]
      unfold writeGammaDetail detailBands
      cases allBands with
      | true =>
        simp only [if_true, List.map_singleton]
        rw [← List.map_eq_flatMap]
        rfl
      | false =>
        simp only [Bool.false_eq_true, if_false]
        have hb : ∀ sigma, detailBandFiles o bands (some p.1) p.1 (some (o.temperatures.map fun t =>
            detail (selfEnergyAt env p.1 none none last o.sigmaCutoff t))) sigma =
            some ((bands.zipIdx.map some).map fun band =>
              detailFileOf env o detail last sigma p.1 band) := by
          intro sigma
          unfold detailBandFiles
          rw [mapM_of_some _ (fun x => detailFileOf env o detail last sigma p.1 (some x)), List.map_map]
          · rfl
          · intro x _
            simp only [Option.map_some, detailFileOf, List.map_map]
            rfl
        rw [mapM_of_some _ _ _ fun sigma _ => hb sigma]
        rfl
    rw [rtaDetailRun]
    simp only [bind, Option.bind, hpoint, hfile, ih s' _ h, List.map_cons, List.flatMap_cons]

/-- C168: with one smearing width every file holds the contributions of its grid point, its width and its
bands at the temperatures written in it, with the triplets of this grid point. What is missing: with several
widths it is so only for the last (C168_last, C168_wrong). -/
theorem C168_single_partial (env : IseEnv P K S G Z A V) (hskip : SkippingHarmless env)
    (o : GammaOptions P K S Z A) (hread : o.readPP = false) (have_ : o.useAverages = false)
    (hconst : o.constant = false) (detail : V → Nat → Nat → E) (known : Bool) (bands : List Nat)
    (allBands : Bool) (sigma : Option K) (hone : o.sigmas = [sigma]) (ps : List (P × A))
    (s : IseObject P K S G Z V) (hs : s.points = none) (old : Option (List (Nat → Nat → E))) :
    ∃ gammas files, rtaDetailRun env o detail known false bands allBands ps s old = some (gammas, files) ∧
      files = ps.flatMap fun p => (detailBands bands allBands).map fun band =>
        detailFileOf env o detail sigma sigma p.1 band := by
  refine ⟨_, _, C168_last env hskip o hread have_ hconst detail known bands allBands [] sigma hone ps s old
    hs, ?_⟩
  rw [hone]
  simp only [List.flatMap_singleton]

/-- C168: with several smearing widths, a file of a width whose contributions differ from those of the last
width at one of the temperatures does not hold the contributions of its width. -/
theorem C168_wrong (env : IseEnv P K S G Z A V) (hskip : SkippingHarmless env)
    (o : GammaOptions P K S Z A) (hread : o.readPP = false) (have_ : o.useAverages = false)
    (hconst : o.constant = false) (detail : V → Nat → Nat → E) (known : Bool) (bands : List Nat)
    (before : List (Option K)) (last : Option K) (hlast : o.sigmas = before ++ [last])
    (ps : List (P × A)) (s : IseObject P K S G Z V) (hs : s.points = none)
    (old : Option (List (Nat → Nat → E))) (p : P × A) (hp : p ∈ ps) (sigma : Option K)
    (hsigma : sigma ∈ before) (t : K) (ht : t ∈ o.temperatures)
    (hdiff : detail (selfEnergyAt env p.1 none none sigma o.sigmaCutoff t) ≠
      detail (selfEnergyAt env p.1 none none last o.sigmaCutoff t)) :
    ∃ gammas files, rtaDetailRun env o detail known false bands true ps s old = some (gammas, files) ∧
      ∃ f ∈ files, f.gridPoint = p.1 ∧ f.sigma = sigma ∧ f.temperatures = o.temperatures ∧
        f.detail ≠ some (.all (o.temperatures.map fun t =>
          detail (selfEnergyAt env p.1 none none sigma o.sigmaCutoff t))) := by
  refine ⟨_, _, C168_last env hskip o hread have_ hconst detail known bands true before last hlast ps s old
    hs, detailFileOf env o detail last sigma p.1 none, ?_, rfl, rfl, rfl, ?_⟩
  · refine List.mem_flatMap.2 ⟨p, hp, List.mem_flatMap.2 ⟨sigma, ?_, List.mem_map.2 ⟨none, ?_, rfl⟩⟩⟩
    · rw [hlast]; exact List.mem_append_left _ hsigma
    · exact List.mem_singleton.2 rfl
  · intro h
    have h := DetailArray.all.inj (Option.some.inj h)
    exact hdiff ((List.map_inj_left.1 h) t ht).symm

/-- C168: with averaged strengths the run fails at its first grid point unless the `Interaction` object held
strengths from something else. -/
theorem C168_averages_fail (env : IseEnv P K S G Z A V) (o : GammaOptions P K S Z A)
    (hread : o.readPP = false) (have_ : o.useAverages = true) (hsig : o.sigmas ≠ [])
    (detail : V → Nat → Nat → E) (readGamma : Bool) (bands : List Nat) (allBands : Bool) (p : P × A)
    (ps : List (P × A)) (s : IseObject P K S G Z V) (old : Option (List (Nat → Nat → E))) :
    rtaDetailRun env o detail false readGamma bands allBands (p :: ps) s old = none := by
  have h : rtaDetailPoint env o detail false readGamma p.1 s p.2 old = none := by
    unfold rtaDetailPoint strengthsShown
    rw [if_neg (by simp [have_]), if_neg (by simp [hread, have_, hsig])]
  rw [rtaDetailRun]
  simp only [bind, Option.bind, h]

/-- C168: with linewidths read from files (and no averaged strengths) the files are written without
contributions. -/
theorem C168_read_gamma (env : IseEnv P K S G Z A V) (o : GammaOptions P K S Z A)
    (have_ : o.useAverages = false) (detail : V → Nat → Nat → E) (known : Bool) (bands : List Nat)
    (ps : List (P × A)) (s : IseObject P K S G Z V) :
    ∃ gammas files, rtaDetailRun env o detail known true bands true ps s none = some (gammas, files) ∧
      files.length = ps.length * o.sigmas.length ∧ ∀ f ∈ files, f.detail = none := by
  induction ps with
  | nil => exact ⟨_, _, rfl, by simp, by simp⟩
  | cons p ps ih =>
    obtain ⟨g, f, e, hl, hd⟩ := ih
    have h : rtaDetailPoint env o detail known true p.1 s p.2 none = some (s, [], none) := by
      unfold rtaDetailPoint
      rw [if_pos (by simp [have_])]
    rw [rtaDetailRun]
    simp only [bind, Option.bind, h, writeGammaDetail, if_true, e]
    refine ⟨_, _, rfl, ?_, ?_⟩
    · simp only [List.length_append, List.length_map, hl, List.length_cons]; ring
    · intro x hx
      rcases List.mem_append.1 hx with hx | hx
      · obtain ⟨_, _, rfl⟩ := List.mem_map.1 hx; rfl
      · exact hd x hx

/-- C168: the same with selected bands fails. -/
theorem C168_read_gamma_bands (env : IseEnv P K S G Z A V) (o : GammaOptions P K S Z A)
    (have_ : o.useAverages = false) (hsig : o.sigmas ≠ []) (detail : V → Nat → Nat → E) (known : Bool)
    (band : Nat) (bands : List Nat) (p : P × A) (ps : List (P × A)) (s : IseObject P K S G Z V) :
    rtaDetailRun env o detail known true (band :: bands) false (p :: ps) s none = none := by
  have h : rtaDetailPoint env o detail known true p.1 s p.2 none = some (s, [], none) := by
    unfold rtaDetailPoint
    rw [if_pos (by simp [have_])]
  obtain ⟨sigma, rest, hs⟩ := List.exists_cons_of_ne_nil hsig
  have hb : detailBandFiles o (band :: bands) s.ppTriplets p.1 (none : Option (List (Nat → Nat → E))) sigma
      = none := by
    unfold detailBandFiles
    rw [List.zipIdx_cons, List.mapM_cons]
    rfl
  have hw : writeGammaDetail o (band :: bands) false s.ppTriplets p.1
      (none : Option (List (Nat → Nat → E))) = none := by
    unfold writeGammaDetail
    rw [if_neg (by simp), hs, List.mapM_cons, hb]
    rfl
  rw [rtaDetailRun]
  simp only [bind, Option.bind, h, hw]

end

/-! ### Contributions and linewidths -/

section
variable {K : Type} [Field K] [LinearOrder K] [IsStrictOrderedRing K]

theorem collectDetailed_skip (nb : Nat) (v v' : Int → K) (n1 n2 : Nat → K) (T : K) (g1 g23 : Int → K)
    (z : Int → Bool) (base : Nat)
    (h : ∀ ij < nb * nb, z (ij : Nat) = false → v (ij : Nat) = v' (ij : Nat)) :
    collectDetailed nb v n1 n2 T g1 g23 z base = collectDetailed nb v' n1 n2 T g1 g23 z base := by
  have key : ∀ ij < nb * nb, detailedEntry nb v n1 n2 T g1 g23 z ij =
      detailedEntry nb v' n1 n2 T g1 g23 z ij := by
    intro ij hij
    unfold detailedEntry
    cases hz : z (ij : Nat) with
    | true => simp
    | false => simp only [Bool.false_eq_true, if_false, h ij hij hz]
  unfold collectDetailed
  simp only
  refine Prod.ext ?_ ?_
  · refine loop_congr fun ij hij => ?_
    rw [key ij hij]
  · refine List.foldl_ext _ _ _ fun s ij hij => ?_
    rw [key ij (List.mem_range.1 hij)]

/-- Contributions do not depend on strengths left out because of the zero flags. -/
theorem detailedAt_skip (c : IseCode K) (addresses : Int → V3) (p : Int) (v v' : Int → K)
    (g : Nat × (Int → K)) (z : Int → Bool) (f : Option (List K)) (t : K)
    (hv : ∀ i < c.numTriplets p, ∀ j < c.o.numBand0, ∀ k < c.o.crystal.numBand,
      ∀ l < c.o.crystal.numBand,
      z (at4 c.o.numBand0 c.o.crystal.numBand c.o.crystal.numBand i j k l : Nat) = false →
      v (at4 c.o.numBand0 c.o.crystal.numBand c.o.crystal.numBand i j k l : Nat) =
      v' (at4 c.o.numBand0 c.o.crystal.numBand c.o.crystal.numBand i j k l : Nat)) :
    c.detailedAt addresses p v g (some z) f t = c.detailedAt addresses p v' g (some z) f t := by
  set nb := c.o.crystal.numBand with hnb
  set n0 := c.o.numBand0 with hn0
  have key : ∀ i < c.numTriplets p, ∀ j < n0,
      detailedAtTriplet c.bose nb (shiftBy v (i * (n0 * nb * nb))) c.o.frequencies (c.triplets p i)
        (shiftBy g.2 (i * (n0 * nb * nb))) (shiftBy g.2 ((i + c.numTriplets p) * (n0 * nb * nb)))
        (shiftBy z (i * (n0 * nb * nb))) t c.o.crystal.cutoff (i * (n0 * nb * nb)) j =
      detailedAtTriplet c.bose nb (shiftBy v' (i * (n0 * nb * nb))) c.o.frequencies (c.triplets p i)
        (shiftBy g.2 (i * (n0 * nb * nb))) (shiftBy g.2 ((i + c.numTriplets p) * (n0 * nb * nb)))
        (shiftBy z (i * (n0 * nb * nb))) t c.o.crystal.cutoff (i * (n0 * nb * nb)) j := by
    intro i hi j hj
    unfold detailedAtTriplet
    refine collectDetailed_skip _ _ _ _ _ _ _ _ _ _ fun ij hij hz => ?_
    have hnb0 : 0 < nb := by
      rcases Nat.eq_zero_or_pos nb with h | h
      · rw [h] at hij; simp at hij
      · exact h
    have hk : ij / nb < nb := Nat.div_lt_of_lt_mul hij
    have hl : ij % nb < nb := Nat.mod_lt _ hnb0
    have e : ((i * (n0 * nb * nb) : Nat) : Int) + (((j * nb * nb : Nat) : Int) + ((ij : Nat) : Int)) =
        (at4 n0 nb nb i j (ij / nb) (ij % nb) : Nat) := by
      have := Nat.div_add_mod ij nb
      unfold at4
      conv_lhs => rw [← this]
      push_cast
      ring
    simp only [shiftBy] at hz ⊢
    rw [e] at hz ⊢
    exact hv i hi j hj _ hk _ hl hz
  unfold IseCode.detailedAt detailedWithG
  simp only [Option.getD_some, ← hnb, ← hn0]
  have hfold : ∀ b < n0, ((List.range (c.numTriplets p)).foldl (fun (nu : K × K) j =>
      let t' := (detailedAtTriplet c.bose nb (shiftBy v (j * (n0 * nb * nb))) c.o.frequencies
        (c.triplets p j) (shiftBy g.2 (j * (n0 * nb * nb)))
        (shiftBy g.2 ((j + c.numTriplets p) * (n0 * nb * nb))) (shiftBy z (j * (n0 * nb * nb))) t
        c.o.crystal.cutoff (j * (n0 * nb * nb)) b).2 * c.weights p j
      if isNormal (c.triplets p j) addresses then (nu.1 + t', nu.2) else (nu.1, nu.2 + t')) (0, 0)) =
      ((List.range (c.numTriplets p)).foldl (fun (nu : K × K) j =>
      let t' := (detailedAtTriplet c.bose nb (shiftBy v' (j * (n0 * nb * nb))) c.o.frequencies
        (c.triplets p j) (shiftBy g.2 (j * (n0 * nb * nb)))
        (shiftBy g.2 ((j + c.numTriplets p) * (n0 * nb * nb))) (shiftBy z (j * (n0 * nb * nb))) t
        c.o.crystal.cutoff (j * (n0 * nb * nb)) b).2 * c.weights p j
      if isNormal (c.triplets p j) addresses then (nu.1 + t', nu.2) else (nu.1, nu.2 + t')) (0, 0)) := by
    intro b hb
    refine List.foldl_ext _ _ _ fun s j hj => ?_
    simp only [key j (List.mem_range.1 hj) b hb]
  have hloop : (loop (c.numTriplets p) fun i => loop n0 fun j =>
      (detailedAtTriplet c.bose nb (shiftBy v (i * (n0 * nb * nb))) c.o.frequencies (c.triplets p i)
        (shiftBy g.2 (i * (n0 * nb * nb))) (shiftBy g.2 ((i + c.numTriplets p) * (n0 * nb * nb)))
        (shiftBy z (i * (n0 * nb * nb))) t c.o.crystal.cutoff (i * (n0 * nb * nb)) j).1) =
      loop (c.numTriplets p) fun i => loop n0 fun j =>
      (detailedAtTriplet c.bose nb (shiftBy v' (i * (n0 * nb * nb))) c.o.frequencies (c.triplets p i)
        (shiftBy g.2 (i * (n0 * nb * nb))) (shiftBy g.2 ((i + c.numTriplets p) * (n0 * nb * nb)))
        (shiftBy z (i * (n0 * nb * nb))) t c.o.crystal.cutoff (i * (n0 * nb * nb)) j).1 :=
    loop_congr fun i hi => loop_congr fun j hj => by rw [key i hi j hj]
  rw [hloop]
  rw [DetailedResult.mk.injEq]
  refine ⟨rfl, ?_, ?_, ?_⟩ <;> funext b <;> by_cases hb : b < n0
  · rw [if_pos hb, if_pos hb]; exact congrArg (fun x : K × K => x.1 * c.unit) (hfold b hb)
  · rw [if_neg hb, if_neg hb]
  · rw [if_pos hb, if_pos hb]; exact congrArg (fun x : K × K => x.2 * c.unit) (hfold b hb)
  · rw [if_neg hb, if_neg hb]
  · rw [if_pos hb, if_pos hb]
    exact congrArg (fun x : K × K => x.1 * c.unit + x.2 * c.unit) (hfold b hb)
  · rw [if_neg hb, if_neg hb]

/-- C168: the routines with details meet `SkippingHarmless`, so that the theorems above hold for them. -/
theorem C168_skipping (c : IseCode K) (addresses : Int → V3) :
    SkippingHarmless (c.detailEnv addresses) := by
  intro p sigma cutoff cls t
  exact detailedAt_skip c addresses p _ _ _ _ none t fun i _ j hj k hk l hl h =>
    strengths_skip c p _ i j k l hj hk hl h

/-- C168: the contributions of a file, summed over pairs of bands and, with their weights, over triplets, and
averaged over degenerate bands, are the linewidths of the run, which are the linewidths of a run without
details. -/
theorem C168_sum (c : IseCode K) (addresses : Int → V3) (p : Int) (sigma cutoff : Option K) (t : K)
    (hbose : ∀ f, c.o.crystal.cutoff < f → 0 ≤ c.bose f t) :
    let r := selfEnergyAt (c.detailEnv addresses) p none none sigma cutoff t
    (averageByDegeneracy (c.degSets p) c.bands fun b => if b < c.o.numBand0 then
      ∑ i ∈ Finset.range (c.numTriplets p), c.weights p i * ∑ k ∈ Finset.range c.o.crystal.numBand,
        ∑ l ∈ Finset.range c.o.crystal.numBand, c.detailEntry r i b k l else 0) = r.total ∧
    r.total = selfEnergyAt c.env p none none sigma cutoff t 0 := by
  intro r
  have hflag := fun i j k l hi hj hk hl h x hx =>
    weightsAt_flag c p p none sigma cutoff i j k l hi hj hk hl h x hx
  have hsound : ∀ b < c.o.numBand0, FlagsSound (c.numTriplets p) c.o.numBand0 c.o.crystal.numBand
      c.o.numBand0 (c.strengths p none) (c.weightsAt p p none sigma cutoff).1.2
      (c.weightsAt p p none sigma cutoff).2 b b := by
    intro b hb i hi k hk l hl h
    exact Or.inl ⟨hflag i b k l hi hb hk hl h 0 (by decide), hflag i b k l hi hb hk hl h 1 (by decide)⟩
  have htot : ∀ b < c.o.numBand0, _ := fun b hb => C26_total c.bose (c.numTriplets p) c.o.numBand0
    c.o.crystal.numBand (c.strengths p none) c.o.frequencies (c.triplets p) (c.weights p) addresses
    (c.weightsAt p p none sigma cutoff).1.2 (c.weightsAt p p none sigma cutoff).2 t c.o.crystal.cutoff
    (fun _ => 0) hbose b hb (hsound b hb) c.o.numBand0
  have hdet : ∀ b < c.o.numBand0, _ := fun b hb => C27_total c.bose (c.numTriplets p) c.o.numBand0
    c.o.crystal.numBand (c.strengths p none) c.o.frequencies (c.triplets p) (c.weights p) addresses
    (c.weightsAt p p none sigma cutoff).1.2 (c.weightsAt p p none sigma cutoff).2 t c.o.crystal.cutoff
    (fun _ => 0) hbose b hb (hsound b hb) c.o.numBand0
  have e1 : r.total = averageByDegeneracy (c.degSets p) c.bands fun b => if b < c.o.numBand0 then
      iseWithG c.bose (c.numTriplets p) c.o.numBand0 c.o.crystal.numBand (c.strengths p none)
        c.o.frequencies (c.triplets p) (c.weights p) (c.weightsAt p p none sigma cutoff).1.2
        (c.weightsAt p p none sigma cutoff).2 t c.o.crystal.cutoff c.o.numBand0 (-1) b * c.unit else 0 := by
    change averageByDegeneracy (c.degSets p) c.bands _ = _
    congr 1
    funext b
    change (if b < c.o.numBand0 then _ * c.unit + _ * c.unit else 0) = _
    by_cases hb : b < c.o.numBand0
    · rw [if_pos hb, if_pos hb, ← htot b hb, ← add_mul]; rfl
    · rw [if_neg hb, if_neg hb]
  refine ⟨?_, ?_⟩
  · rw [e1]
    congr 1
    funext b
    by_cases hb : b < c.o.numBand0
    · rw [if_pos hb, if_pos hb, ← hdet b hb, Finset.sum_mul]
      refine Finset.sum_congr rfl fun i _ => ?_
      rw [mul_assoc, Finset.sum_mul]
      refine congrArg (fun z => _ * z) (Finset.sum_congr rfl fun k _ => ?_)
      rw [Finset.sum_mul]
      refine Finset.sum_congr rfl fun l _ => ?_
      rfl
    · rw [if_neg hb, if_neg hb]
  · rw [e1]
    change _ = averageByDegeneracy (c.degSets p) c.bands (c.resultAt p (c.strengths p none)
      (c.weightsAt p p none sigma cutoff).1 (some (c.weightsAt p p none sigma cutoff).2) none t 0)
    congr 1

end

/-! ### Examples -/

section Examples

/-- Options with two smearing widths. -/
def twoWidths : GammaOptions Int Int Int Int Int :=
  ⟨[300], [some 1, some 2], none, false, false, fun _ _ _ => none, false, 0, false⟩

/-- In a run with two smearing widths the file of the first holds what belongs to the second: the hypotheses
of C168_last and C168_wrong are met. -/
example : twoWidths.sigmas = [some 1] ++ [some 2] ∧
    (fun (i b : Nat) => selfEnergyAt toyEnv 5 none none (some 1) none 300 + i + b) ≠
    (fun (i b : Nat) => selfEnergyAt toyEnv 5 none none (some 2) none 300 + i + b) :=
  ⟨rfl, fun h => absurd (congrFun (congrFun h 0) 0) (by decide +kernel)⟩

/-- The same, run: contributions of triplet 0 to band 0 in the two files. -/
example : ((rtaDetailRun toyEnv twoWidths (fun (v : Int) (i b : Nat) => v + i + b) false false [0] true
      [(5, 0)] (iseNew none) none).map fun r => r.2.map fun f =>
        (f.sigma, match f.detail with | some (.all a) => a.map fun d => d 0 0 | _ => [])) =
    some [(some 1, [328505]), (some 2, [328505])] := by decide +kernel

/-- One width: the file holds its contributions. -/
example : ((rtaDetailRun toyEnv { twoWidths with sigmas := [some 1] } (fun (v : Int) (i b : Nat) => v + i + b)
      false false [0, 2] false [(5, 0), (6, 0)] (iseNew none) none).map fun r => r.2.map fun f =>
        (f.gridPoint, f.bandIndex)) =
    some [(5, some 0), (5, some 2), (6, some 0), (6, some 2)] := by decide +kernel

end Examples
end Phono3py.Props
