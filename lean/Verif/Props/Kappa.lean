/-
C42, C79-C83: linewidths and thermal conductivity in the relaxation time approximation.
-/
import Mathlib.Algebra.BigOperators.Field
import Mathlib.Algebra.BigOperators.Fin
import Mathlib.Data.List.GetD
import Mathlib.Data.Matrix.Mul
import Mathlib.Tactic.FinCases
import Verif.Props.CondIter
import Verif.Props.CollisionElements
import Verif.Lemmas.Isotope
import Verif.Spec.Conductivity

namespace Phono3py.Props
open Finset Spec

section
variable {K : Type _} [Field K] [LinearOrder K] [IsStrictOrderedRing K]

/-! ### C42: scattering channels -/

theorem boundary_value (c : Channels K) (mfp : K) (n : Nat) (gv : Nat → Fin 3 → K) :
    boundaryScattering c mfp n n gv =
      some ((List.range n).map fun l => c.norm (gv l) * c.unit / (4 * c.pi * mfp)) := by
  unfold boundaryScattering
  rw [mapM_forall₂]
  have gen : ∀ l : List Nat, (∀ x ∈ l, x < n) →
      List.Forall₂ (fun l v => (if l < n then some (c.norm (gv l) * c.unit / (4 * c.pi * mfp))
        else none) = some v) l (l.map fun l => c.norm (gv l) * c.unit / (4 * c.pi * mfp)) := by
    intro l h
    induction l with
    | nil => exact List.Forall₂.nil
    | cons x l ih =>
      refine List.Forall₂.cons ?_ (ih fun y hy => h y (List.mem_cons_of_mem _ hy))
      rw [if_pos (h x List.mem_cons_self)]
  exact gen _ fun x hx => List.mem_range.1 hx

/-- The linewidth of band `l` from the enabled channels. -/
def channelSum (c : Channels K) (gamma gammaIso : List K) (gv : Nat → Fin 3 → K) (l : Nat) : K :=
  gamma.getD l 0 + (if c.isIsotope then gammaIso.getD l 0 else 0) +
    match c.boundaryMfp with
    | none => 0
    | some mfp => c.norm (gv l) * c.unit / (4 * c.pi * mfp)

theorem list_ext_getD (a b : List K) (h : a.length = b.length)
    (hv : ∀ l < a.length, a.getD l 0 = b.getD l 0) : a = b := by
  refine List.ext_getElem h fun l h1 h2 => ?_
  have := hv l h1
  rwa [List.getD_eq_getElem _ _ h1, List.getD_eq_getElem _ _ h2] at this

theorem add_value (a b : List K) (h : a.length = b.length) :
    ∃ d, addArrays a b = some d ∧ d.length = a.length ∧
      ∀ l < a.length, d.getD l 0 = a.getD l 0 + b.getD l 0 := by
  refine ⟨List.zipWith (· + ·) a b, by rw [addArrays, if_pos h], by simp [h], fun l hl => ?_⟩
  have h2 : l < b.length := h ▸ hl
  have h3 : l < (List.zipWith (· + ·) a b).length := by simpa [h] using h2
  rw [List.getD_eq_getElem _ _ hl, List.getD_eq_getElem _ _ h2, List.getD_eq_getElem _ _ h3,
    List.getElem_zipWith]

/-- **C42 (value).** When all bands are treated, the linewidth of every band is the sum of the
enabled channels and nothing else. -/
theorem C42_value (c : Channels K) (n : Nat) (gamma gammaIso : List K) (gv : Nat → Fin 3 → K)
    (hg : gamma.length = n) (hi : c.isIsotope → gammaIso.length = n) :
    condMainDiagonal c n gamma gammaIso gv =
      some ((List.range n).map (channelSum c gamma gammaIso gv)) := by
  have h1 : ∃ d, (if c.isIsotope then addArrays gamma gammaIso else some gamma) = some d ∧
      d.length = n ∧ ∀ l < n, d.getD l 0 =
        gamma.getD l 0 + if c.isIsotope then gammaIso.getD l 0 else 0 := by
    by_cases h : c.isIsotope
    · obtain ⟨d, e1, e2, e3⟩ := add_value gamma gammaIso (by rw [hg, hi h])
      exact ⟨d, by rw [if_pos h, e1], by rw [e2, hg], fun l hl => by
        rw [if_pos h]; exact e3 l (hg ▸ hl)⟩
    · exact ⟨gamma, by rw [if_neg h], hg, fun l _ => by rw [if_neg h, add_zero]⟩
  obtain ⟨d, e1, e2, e3⟩ := h1
  unfold condMainDiagonal
  rw [e1]
  rcases hb : c.boundaryMfp with _ | mfp
  · simp only [Option.bind_some]
    congr 1
    refine list_ext_getD _ _ (by simp [e2]) fun l hl => ?_
    rw [e2] at hl
    rw [List.getD_eq_getElem (l := (List.range n).map _) _ (by simpa using hl), List.getElem_map,
      List.getElem_range, e3 l hl, channelSum, hb, add_zero]
  · simp only [Option.bind_some]
    rw [hg, boundary_value, Option.bind_some]
    obtain ⟨d', f1, f2, f3⟩ := add_value d
      ((List.range n).map fun l => c.norm (gv l) * c.unit / (4 * c.pi * mfp)) (by simp [e2])
    rw [f1]
    congr 1
    refine list_ext_getD _ _ (by simp [f2, e2]) fun l hl => ?_
    rw [f2, e2] at hl
    rw [f3 l (e2 ▸ hl), e3 l hl,
      List.getD_eq_getElem (l := (List.range n).map _) _ (by simpa using hl), List.getElem_map,
      List.getElem_range, List.getD_eq_getElem (l := (List.range n).map _) _ (by simpa using hl),
      List.getElem_map, List.getElem_range, channelSum, hb]

/-- **C42 (channels).** Enabling isotope and boundary scattering never lowers a linewidth. -/
theorem C42_monotone (c : Channels K) (gamma gammaIso : List K) (gv : Nat → Fin 3 → K) (l : Nat)
    (hiso : 0 ≤ gammaIso.getD l 0) (hnorm : 0 ≤ c.norm (gv l)) (hu : 0 ≤ c.unit) (hpi : 0 ≤ c.pi)
    (hmfp : ∀ m, c.boundaryMfp = some m → 0 ≤ m) :
    gamma.getD l 0 ≤ channelSum { c with isIsotope := false } gamma gammaIso gv l ∧
      channelSum { c with isIsotope := false } gamma gammaIso gv l ≤
        channelSum { c with isIsotope := true } gamma gammaIso gv l ∧
      channelSum { c with boundaryMfp := none } gamma gammaIso gv l ≤
        channelSum c gamma gammaIso gv l := by
  have hb : 0 ≤ (match c.boundaryMfp with
      | none => 0
      | some mfp => c.norm (gv l) * c.unit / (4 * c.pi * mfp)) := by
    rcases h : c.boundaryMfp with _ | m
    · exact le_refl _
    · have := hmfp m h
      dsimp only
      positivity
  refine ⟨?_, ?_, ?_⟩
  · unfold channelSum
    dsimp only
    simp only [Bool.false_eq_true, if_false, add_zero]
    linarith
  · unfold channelSum
    dsimp only
    simp only [Bool.false_eq_true, if_false, if_true]
    linarith
  · unfold channelSum
    dsimp only
    linarith

/-- **C42 (finding).** With boundary scattering and a subset of the bands the linewidths cannot be
evaluated: the loop over all bands of the crystal reads velocities of bands that were not
calculated. -/
theorem C42_band_subset (c : Channels K) (mfp : K) (hm : c.boundaryMfp = some mfp) (n : Nat)
    (gamma gammaIso : List K) (gv : Nat → Fin 3 → K) (h : gamma.length < n) :
    condMainDiagonal c n gamma gammaIso gv = none := by
  have hb : boundaryScattering c mfp n gamma.length gv = none := by
    rcases hx : boundaryScattering c mfp n gamma.length gv with _ | d
    · rfl
    · unfold boundaryScattering at hx
      rw [mapM_forall₂] at hx
      exfalso
      have hlen := hx.length_eq
      rw [List.length_range] at hlen
      have := List.forall₂_iff_get.1 hx
      have h2 := this.2 gamma.length (by simpa using h) (hlen ▸ h)
      simp at h2
  unfold condMainDiagonal
  rw [hm]
  dsimp only
  rw [hb]
  rcases (if c.isIsotope then addArrays gamma gammaIso else some gamma) with _ | d <;> rfl

/-! ### Heat capacities and multiplicities -/

/-- **C42 (heat capacity).** Modes at or below the cutoff, and all modes of a frequency of 100 kT or
more, have no heat capacity; other modes have the value of the heat capacity function at their own
temperature. -/
theorem C42_heat_capacity (modeCv : K → K → K) (kb cutoff t f : K) :
    heatCapacityOf modeCv kb cutoff t f =
      if cutoff < f ∧ f < 100 * t * kb then modeCv t f else 0 := by
  unfold heatCapacityOf
  by_cases h1 : f > cutoff
  · by_cases h2 : f < 100 * t * kb
    · rw [if_pos h1, if_pos h2, if_pos h2, if_pos ⟨h1, h2⟩]
    · rw [if_pos h1, if_neg h2, if_neg fun h => h2 h.2]
  · rw [if_neg h1, if_neg fun h => h1 h.1]

/-- `q - r q`. -/
def opDiff (q : Fin 3 → K) (r : Fin 3 → Fin 3 → Int) (a : Fin 3) : K :=
  q a - ((r a 0 : K) * q 0 + (r a 1 : K) * q 1 + (r a 2 : K) * q 2)

/-- `r` maps `q` to itself up to a reciprocal lattice vector. -/
def Fixes (q : Fin 3 → K) (r : Fin 3 → Fin 3 → Int) : Prop := ∀ a, ∃ n : Int, opDiff q r a = n

open Classical in
/-- **C78 (multiplicity).** If the tolerance separates q-points, the multiplicity is the number of
operations that map the q-point to itself up to a reciprocal lattice vector. -/
theorem C78_multiplicity (rint : K → Int) (hr : ∀ n : Int, rint (n : K) = n)
    (dist2 : (Fin 3 → K) → K) (tol : K) (htol : 0 < tol) (h0 : dist2 (fun _ => 0) = 0)
    (q : Fin 3 → K) (ops : List (Fin 3 → Fin 3 → Int))
    (hsep : ∀ r ∈ ops, ¬ Fixes q r →
      tol ^ 2 ≤ dist2 fun a => opDiff q r a - (rint (opDiff q r a) : K)) :
    multiplicityAtQ true rint dist2 tol q ops = ops.countP fun r => decide (Fixes q r) := by
  unfold multiplicityAtQ
  rw [if_pos rfl]
  have gen : ∀ (l : List (Fin 3 → Fin 3 → Int)) (x : Nat), (∀ r ∈ l, r ∈ ops) →
      l.foldl (fun multi r =>
        let qRot : Fin 3 → K := fun a => (r a 0 : K) * q 0 + (r a 1 : K) * q 1 + (r a 2 : K) * q 2
        let diff : Fin 3 → K := fun a => q a - qRot a - (rint (q a - qRot a) : K)
        if dist2 diff < tol ^ 2 then multi + 1 else multi) x =
      x + l.countP fun r => decide (Fixes q r) := by
    intro l
    induction l with
    | nil => intro x _; rfl
    | cons r l ih =>
      intro x hl
      rw [List.foldl_cons, ih _ fun r' h => hl r' (List.mem_cons_of_mem _ h), List.countP_cons]
      have hrm := hl r List.mem_cons_self
      by_cases hd : Fixes q r
      · rw [if_pos (decide_eq_true hd)]
        dsimp only
        have e : (fun a => opDiff q r a - (rint (opDiff q r a) : K)) = fun _ => 0 := by
          funext a
          obtain ⟨n, hn⟩ := hd a
          rw [hn, hr, sub_self]
        unfold opDiff at e
        rw [e, h0, if_pos (by positivity)]
        omega
      · have := hsep r hrm hd
        unfold opDiff at this
        dsimp only
        rw [if_neg (not_lt.2 this), if_neg (by simpa using hd), Nat.add_zero]
  rw [gen ops 0 fun r h => h, Nat.zero_add]

/-! ### C79: repeated calls -/

/-- **C79 (repeated calls).** Calling `set_kappa_at_sigmas` of the standard conductivity again
gives the same mode contributions and the same conductivity. -/
theorem C79_repeat_partial (k : KappaInput K) (old : Nat → Nat → Fin 6 → K) :
    modeKappaRTA k (modeKappaRTA k old) = modeKappaRTA k old := by
  funext i l c
  unfold modeKappaRTA
  split
  · split
    · rfl
    · split <;> rfl
  · rfl

theorem ignored_value (k : KappaInput K) (old : Nat) :
    ignoredModesRTA k old = old + ∑ i ∈ range k.numGp,
      ((range k.numBand).filter fun l => k.frequencies i l < k.cutoff).card := by
  unfold ignoredModesRTA
  have inner : ∀ (i x : Nat), (List.range k.numBand).foldl (fun s l =>
      if k.frequencies i l < k.cutoff then s + 1 else s) x =
      x + ((range k.numBand).filter fun l => k.frequencies i l < k.cutoff).card := by
    intro i x
    induction k.numBand with
    | zero => rfl
    | succ n ih =>
      rw [List.range_succ, List.foldl_append, ih, Finset.range_add_one, Finset.filter_insert]
      simp only [List.foldl_cons, List.foldl_nil]
      split
      · rw [Finset.card_insert_of_notMem (by simp), Nat.add_assoc]
      · rfl
  simp only [inner]
  induction k.numGp with
  | zero => rfl
  | succ n ih =>
    rw [List.range_succ, List.foldl_append, ih, Finset.sum_range_succ]
    simp only [List.foldl_cons, List.foldl_nil]
    omega

/-- On the first call the number of ignored modes is the number of modes below the cutoff. -/
theorem C79_ignored (k : KappaInput K) :
    ignoredModesRTA k 0 = ∑ i ∈ range k.numGp,
      ((range k.numBand).filter fun l => k.frequencies i l < k.cutoff).card := by
  rw [ignored_value, Nat.zero_add]

/-- **C79 (finding).** Every further call adds the ignored modes again. -/
theorem C79_ignored_twice (k : KappaInput K) :
    ignoredModesRTA k (ignoredModesRTA k 0) = 2 * ignoredModesRTA k 0 := by
  rw [ignored_value k (ignoredModesRTA k 0), C79_ignored]
  omega

/-- **C79 (finding).** Entries of modes whose linewidth vanishes in a later call keep the value of
the earlier call. -/
theorem C79_stale (k : KappaInput K) (old : Nat → Nat → Fin 6 → K) (i l : Nat)
    (h : k.gSum i l = 0) (c : Fin 6) : modeKappaRTA k old i l c = old i l c := by
  unfold modeKappaRTA
  split
  · split
    · rfl
    · rw [if_pos (by rw [h, zero_mul])]
  · rfl

end

/-- Channels of an example: isotopes and a boundary at distance 2, velocities measured by their
first component. -/
def channelExample : Channels ℚ where
  isIsotope := true
  boundaryMfp := some 2
  norm v := |v 0|
  unit := 8
  pi := 3

example : condMainDiagonal channelExample 2 [1, 2] [3, 4] (fun l _ => 3 * (l + 1)) =
    some [1 + 3 + 1, 2 + 4 + 2] := by decide +kernel

/-- A subset of the bands with boundary scattering is an error. -/
example : condMainDiagonal channelExample 3 [1, 2] [3, 4] (fun l _ => 3 * (l + 1)) = none := by
  decide +kernel

/-- Two grid points with two bands, the first mode below the cutoff. -/
def kappaExample : KappaInput ℚ where
  numGp := 2
  numBand := 2
  frequencies i l := i + l
  cutoff := 1 / 2
  gSum _ _ := 1
  cv _ _ := 1
  gvSum2 _ _ _ := 4
  factor := 1
  n := 2

example : ignoredModesRTA kappaExample 0 = 1 ∧
    ignoredModesRTA kappaExample (ignoredModesRTA kappaExample 0) = 2 ∧
    kappaRTA kappaExample 0 = 3 := by decide +kernel

/-- The multiplicity of the zone boundary point `(1/2, 0, 0)` under identity and inversion is two,
that of `(1/4, 0, 0)` one. -/
example : multiplicityAtQ (K := ℚ) true (fun x => round x) (fun d => d 0 ^ 2 + d 1 ^ 2 + d 2 ^ 2)
    (1 / 100000) (fun a => if a = 0 then 1 / 2 else 0)
    [fun a b => if a = b then 1 else 0, fun a b => if a = b then -1 else 0] = 2 ∧
    multiplicityAtQ (K := ℚ) true (fun x => round x) (fun d => d 0 ^ 2 + d 1 ^ 2 + d 2 ^ 2)
    (1 / 100000) (fun a => if a = 0 then 1 / 4 else 0)
    [fun a b => if a = b then 1 else 0, fun a b => if a = b then -1 else 0] = 1 := by
  decide +kernel

end Phono3py.Props
