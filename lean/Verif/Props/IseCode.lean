/-
C146, C147 for the routines of the code: linewidths as full sums, averaged interaction strengths, and
collision matrices.
-/
import Verif.Props.IseRuns
import Verif.Props.CollisionElements

set_option linter.unusedSectionVars false

namespace Phono3py.Props
open Phono3py Phono3py.Spec

section
variable {K : Type} [Field K] [LinearOrder K] [IsStrictOrderedRing K]

/-- C146: with the routines of the code, the self-energy that belongs to a grid point, smearing width
and temperature is the weighted sum over all triplets and all pairs of bands of C25, averaged over
degenerate bands. -/
theorem C146_full_sum (c : IseCode K) (p : Int) (cls : Option Nat) (sigma cutoff : Option K) (t : K)
    (hbose : ∀ f, c.o.crystal.cutoff < f → 0 ≤ c.bose f t) :
    selfEnergyAt c.env p cls none sigma cutoff t 0 =
      averageByDegeneracy (c.degSets p) c.bands fun b =>
        if b < c.o.numBand0 then
          linewidth c.bose (c.numTriplets p) c.o.numBand0 c.o.crystal.numBand c.o.numBand0
            (c.strengths p none) c.o.frequencies (c.triplets p) (c.weights p)
            (iseEventClass c.env cls (c.weightsAt p p none sigma cutoff).1).2 t c.o.crystal.cutoff b b
            * c.unit
        else 0 := by
  change averageByDegeneracy (c.degSets p) c.bands (c.resultAt p (c.strengths p none)
    (iseEventClass c.env cls (c.weightsAt p p none sigma cutoff).1)
    (some (c.weightsAt p p none sigma cutoff).2) none t 0) = _
  congr 1
  have hflag := fun i j k l hi hj hk hl h x hx => eventClass_snd c cls _ _
    (weightsAt_flag c p p none sigma cutoff i j k l hi hj hk hl h x hx)
  generalize iseEventClass c.env cls (c.weightsAt p p none sigma cutoff).1 = g at hflag ⊢
  generalize (c.weightsAt p p none sigma cutoff).2 = z at hflag ⊢
  funext b
  unfold IseCode.resultAt
  by_cases hb : b < c.o.numBand0
  · rw [if_pos hb, if_pos hb]
    simp only [if_true]
    unfold cIse
    rw [Option.getD_some, C25_full_sum _ _ _ _ _ _ _ _ _ _ _ _ _ hbose b hb]
    intro i hi k hk l hl h
    exact Or.inl ⟨hflag i b k l hi hb hk hl h 0 (by decide), hflag i b k l hi hb hk hl h 1 (by decide)⟩
  · rw [if_neg hb, if_neg hb]

theorem fromAverages_at (c : IseCode K) (a : Nat → K) (i b k l : Nat) (hb : b < c.o.numBand0)
    (hk : k < c.o.crystal.numBand) (hl : l < c.o.crystal.numBand) :
    c.fromAverages a ((((i * c.o.numBand0 + b) * c.o.crystal.numBand + k) * c.o.crystal.numBand + l :
      Nat) : Int) = a b / ((c.o.D.x * c.o.D.y * c.o.D.z : Int) : K) := by
  unfold IseCode.fromAverages
  set nb := c.o.crystal.numBand
  set n0 := c.o.numBand0
  have hlt : k * nb + l < nb * nb := by nlinarith
  have e : (((i * n0 + b) * nb + k) * nb + l) / (nb * nb) = i * n0 + b := by
    rw [show ((i * n0 + b) * nb + k) * nb + l = nb * nb * (i * n0 + b) + (k * nb + l) by ring,
      Nat.mul_add_div (by omega), Nat.div_eq_of_lt hlt, Nat.add_zero]
  have e' : ((((((i * n0 + b) * nb + k) * nb + l : Nat) : Int)) / ((nb * nb : Nat) : Int)).toNat =
      i * n0 + b := by
    rw [← Int.natCast_div, Int.toNat_natCast, e]
  simp only [e']
  rw [Nat.mul_comm, Nat.mul_add_mod, Nat.mod_eq_of_lt hb]

/-- The average of strengths that do not depend on triplet and pair of bands. -/
theorem averages_same (c : IseCode K) (p : Int) (v : Int → K) (x : K) (b : Nat)
    (hb : b < c.o.numBand0) (hnb : 0 < c.o.crystal.numBand)
    (hN : ((c.o.D.x * c.o.D.y * c.o.D.z : Int) : K) ≠ 0)
    (hw : (∑ i ∈ Finset.range (c.numTriplets p), c.weights p i) = c.o.D.x * c.o.D.y * c.o.D.z)
    (hv : ∀ i < c.numTriplets p, ∀ k < c.o.crystal.numBand, ∀ l < c.o.crystal.numBand,
      v ((((i * c.o.numBand0 + b) * c.o.crystal.numBand + k) * c.o.crystal.numBand + l : Nat) : Int) =
        x / ((c.o.D.x * c.o.D.y * c.o.D.z : Int) : K)) :
    c.averages p v b = x := by
  unfold IseCode.averages
  rw [sumLoop_eq]
  have h1 : ∀ i ∈ Finset.range (c.numTriplets p), (c.weights p i : K) *
      (sumLoop c.o.crystal.numBand fun k => sumLoop c.o.crystal.numBand fun l =>
        v ((((i * c.o.numBand0 + b) * c.o.crystal.numBand + k) * c.o.crystal.numBand + l : Nat) :
          Int)) =
      (c.weights p i : K) * (((c.o.crystal.numBand * c.o.crystal.numBand : Nat) : K) *
        (x / ((c.o.D.x * c.o.D.y * c.o.D.z : Int) : K))) := by
    intro i hi
    rw [Finset.mem_range] at hi
    congr 1
    rw [sumLoop_eq, Finset.sum_congr rfl fun k hk => by
      rw [sumLoop_eq, Finset.sum_congr rfl fun l hl =>
        hv i hi k (Finset.mem_range.1 hk) l (Finset.mem_range.1 hl), Finset.sum_const,
        Finset.card_range]]
    rw [Finset.sum_const, Finset.card_range, nsmul_eq_mul, nsmul_eq_mul]
    push_cast; ring
  rw [Finset.sum_congr rfl h1, ← Finset.sum_mul]
  have h2 : (∑ i ∈ Finset.range (c.numTriplets p), (c.weights p i : K)) =
      ((c.o.D.x * c.o.D.y * c.o.D.z : Int) : K) := by rw [← hw]; push_cast; rfl
  rw [h2]
  have h3 : ((c.o.crystal.numBand * c.o.crystal.numBand : Nat) : K) ≠ 0 := by
    have : 0 < c.o.crystal.numBand * c.o.crystal.numBand := Nat.mul_pos hnb hnb
    exact_mod_cast this.ne'
  field_simp

/-- C147: strengths set from averages have these averages (the weights of the triplets sum to the number
of grid points by C16). -/
theorem C147_averages_back (c : IseCode K) (p : Int) (a : Nat → K) (b : Nat)
    (hb : b < c.o.numBand0) (hnb : 0 < c.o.crystal.numBand)
    (hN : ((c.o.D.x * c.o.D.y * c.o.D.z : Int) : K) ≠ 0)
    (hw : (∑ i ∈ Finset.range (c.numTriplets p), c.weights p i) = c.o.D.x * c.o.D.y * c.o.D.z) :
    c.env.averages p (c.env.fromAverages p a) b = a b :=
  averages_same c p _ _ b hb hnb hN hw fun i _ k hk l hl => fromAverages_at c a i b k l hb hk hl

/-- C147: the averages stored for constant strengths are the constant. -/
theorem C147_constant_average (c : IseCode K) (x : K) (hx : c.o.constant = some x) (p : Int) (b : Nat)
    (hb : b < c.o.numBand0) (hnb : 0 < c.o.crystal.numBand)
    (hN : ((c.o.D.x * c.o.D.y * c.o.D.z : Int) : K) ≠ 0)
    (hw : (∑ i ∈ Finset.range (c.numTriplets p), c.weights p i) = c.o.D.x * c.o.D.y * c.o.D.z) :
    c.env.averages p (c.env.strengths p none) b = x :=
  averages_same c p _ _ b hb hnb hN hw fun i _ k hk l hl => by
    change c.strengths p none _ = _
    unfold IseCode.strengths
    rw [hx]

/-- C147: linewidths with the constant `x` are those with averages that are all `x`. -/
theorem C147_constant_as_averages (c : IseCode K) (x : K) (hx : c.o.constant = some x) (p : Int)
    (cls : Option Nat) (f : Option (List K)) (sigma cutoff : Option K) (t : K) :
    selfEnergyAt c.env p cls f sigma cutoff t =
      selfEnergyWith c.env (c.env.fromAverages p fun _ => x) p cls f sigma cutoff t := by
  unfold selfEnergyAt
  congr 1
  funext q
  change c.strengths p none q = c.fromAverages (fun _ => x) q
  unfold IseCode.strengths IseCode.fromAverages
  rw [hx]

theorem foldl_keeps_zero (l : List Nat) (x : K) (hx : x = 0) :
    ∀ (se : Nat → K), (∀ k, se k = 0) →
      ∀ k, (l.foldl (fun (se : Nat → K) i => fun k => if k = i then x else se k) se) k = 0 := by
  induction l with
  | nil => intro se h k; exact h k
  | cons a l ih =>
    intro se h k
    rw [List.foldl_cons]
    refine ih _ (fun k => ?_) k
    by_cases hk : k = a
    · rw [if_pos hk]; exact hx
    · rw [if_neg hk]; exact h k

theorem averageByDegeneracy_zero (degSets : List (List Nat)) (bands : List Nat) (k : Nat) :
    averageByDegeneracy degSets bands (fun _ => (0 : K)) k = 0 := by
  unfold averageByDegeneracy
  have key : ∀ (l : List (List Nat)) (se : Nat → K), (∀ k, se k = 0) →
      ∀ k, (l.foldl (averageSet bands fun _ => (0 : K)) se) k = 0 := by
    intro l
    induction l with
    | nil => intro se h k; exact h k
    | cons d l ih =>
      intro se h k
      rw [List.foldl_cons]
      refine ih _ (fun k => ?_) k
      unfold averageSet
      exact foldl_keeps_zero _ _ (by simp) se h k
  exact key degSets _ (fun _ => rfl) k

/-- C147: averaged strengths that were asked for but never set (the file has none) are zeros, and then all
linewidths are zero, without a complaint. -/
theorem C147_averages_missing (c : IseCode K) (p : Int) (sigma cutoff : Option K) (t : K)
    (hbose : ∀ f, c.o.crystal.cutoff < f → 0 ≤ c.bose f t) (b : Nat) :
    selfEnergyWith c.env (c.env.fromAverages p fun _ => 0) p none none sigma cutoff t 0 b = 0 := by
  change averageByDegeneracy (c.degSets p) c.bands (c.resultAt p (c.fromAverages fun _ => 0)
    (iseEventClass c.env none (c.weightsAt p p none sigma cutoff).1)
    (some (c.weightsAt p p none sigma cutoff).2) none t 0) b = 0
  have : c.resultAt p (c.fromAverages fun _ => 0)
      (iseEventClass c.env none (c.weightsAt p p none sigma cutoff).1)
      (some (c.weightsAt p p none sigma cutoff).2) none t 0 = fun _ => 0 := by
    generalize iseEventClass c.env none (c.weightsAt p p none sigma cutoff).1 = g
    generalize (c.weightsAt p p none sigma cutoff).2 = z
    funext b
    unfold IseCode.resultAt
    by_cases hb : b < c.o.numBand0
    · rw [if_pos hb]
      simp only [if_true]
      unfold cIse
      rw [Option.getD_some, C25_full_sum _ _ _ _ _ _ _ _ _ _ _ _ _ hbose b hb]
      · unfold linewidth pairSum modePair IseCode.fromAverages
        simp
      · intro i hi k hk l hl h
        exact Or.inr (by unfold IseCode.fromAverages; simp)
    · rw [if_neg hb]
  rw [this]
  exact averageByDegeneracy_zero _ _ _

/-! ### Collision matrices -/

theorem collisionSum_skip (c : CollisionInput K) (v : Int → K) (z : Int → Bool) (n : Nat)
    (hz : ∀ i < n, ∀ j < c.numBand0, ∀ k < c.numBand, ∀ l < c.numBand,
      z (at4 c.numBand0 c.numBand c.numBand i j k l : Nat) = true →
        c.g (at4 c.numBand0 c.numBand c.numBand i j k l : Nat) = 0)
    (hv : ∀ i < n, ∀ j < c.numBand0, ∀ k < c.numBand, ∀ l < c.numBand,
      z (at4 c.numBand0 c.numBand c.numBand i j k l : Nat) = false →
        v (at4 c.numBand0 c.numBand c.numBand i j k l : Nat) =
          c.fc3NormalSquared (at4 c.numBand0 c.numBand c.numBand i j k l : Nat))
    (gp2tp : Int → Int) (gp : Int) (ti : Nat) (hti : gp2tp (c.tripletsMap gp) = ti) (hn : ti < n)
    (j k : Nat) (hj : j < c.numBand0) (hk : k < c.numBand) :
    Phono3py.collisionSum { c with fc3NormalSquared := v } gp2tp gp j k =
      Phono3py.collisionSum c gp2tp gp j k := by
  have key : ∀ a < c.numBand, ∀ b < c.numBand,
      v (at4 c.numBand0 c.numBand c.numBand ti j a b : Nat) *
        c.g (at4 c.numBand0 c.numBand c.numBand ti j a b : Nat) =
      c.fc3NormalSquared (at4 c.numBand0 c.numBand c.numBand ti j a b : Nat) *
        c.g (at4 c.numBand0 c.numBand c.numBand ti j a b : Nat) := by
    intro a ha b hb
    cases h : z (at4 c.numBand0 c.numBand c.numBand ti j a b : Nat) with
    | true => rw [hz ti hn j hj a ha b hb h, mul_zero, mul_zero]
    | false => rw [hv ti hn j hj a ha b hb h]
  have e : ∀ a b : Nat, (ti : Int) * c.numBand0 * c.numBand * c.numBand + j * c.numBand * c.numBand +
      a * c.numBand + b = (at4 c.numBand0 c.numBand c.numBand ti j a b : Nat) := by
    intro a b; unfold at4; push_cast; ring
  unfold Phono3py.collisionSum
  simp only [hti]
  rw [sumLoop_eq, sumLoop_eq]
  refine Finset.sum_congr rfl fun m hm => ?_
  rw [Finset.mem_range] at hm
  unfold inverseSinh
  simp only [e]
  rw [key m hm k hk, key k hk m hm]

/-- C147: strengths left out because of the zero flags do not change the collision matrices either,
reducible or not, when flagged weights are zero (C23, C24), grid points have triplets (C38) and rotated
points are on the grid. -/
theorem C147_collision_skipping (mem : Int → Int) (c : CollisionInput K) (v : Int → K)
    (z : Int → Bool) (n : Nat)
    (hz : ∀ i < n, ∀ j < c.numBand0, ∀ k < c.numBand, ∀ l < c.numBand,
      z (at4 c.numBand0 c.numBand c.numBand i j k l : Nat) = true →
        c.g (at4 c.numBand0 c.numBand c.numBand i j k l : Nat) = 0)
    (hv : ∀ i < n, ∀ j < c.numBand0, ∀ k < c.numBand, ∀ l < c.numBand,
      z (at4 c.numBand0 c.numBand c.numBand i j k l : Nat) = false →
        v (at4 c.numBand0 c.numBand c.numBand i j k l : Nat) =
          c.fc3NormalSquared (at4 c.numBand0 c.numBand c.numBand i j k l : Nat))
    (hmap : ∀ gp : Nat, gp < c.numGp → ∃ ti : Nat,
      createGp2tpMap mem c.tripletsMap c.numGp (c.tripletsMap gp) = ti ∧ ti < n)
    (rotGp : Int → Int) (numIr numRot : Nat)
    (hrot : ∀ i < numIr, ∀ j < numRot, ∃ gp : Nat,
      rotGp ((i * numRot + j : Nat) : Int) = gp ∧ gp < c.numGp) (rotations a : Int → K) :
    reducibleCollisionMatrix mem { c with fc3NormalSquared := v } a =
      reducibleCollisionMatrix mem c a ∧
    collisionMatrix mem { c with fc3NormalSquared := v } rotGp numIr numRot rotations a =
      collisionMatrix mem c rotGp numIr numRot rotations a := by
  constructor
  · unfold reducibleCollisionMatrix
    simp only
    congr 1
    refine loop_congr fun i hi => loop_congr fun j hj => loop_congr fun k hk => ?_
    obtain ⟨ti, h1, h2⟩ := hmap i hi
    rw [collisionSum_skip c v z n hz hv _ _ ti h1 h2 j k hj hk]
  · unfold collisionMatrix
    refine congrArg (runAdds a) (loop_congr fun i hi => ?_)
    unfold collisionAdds
    refine loop_congr fun r hr => loop_congr fun j hj => loop_congr fun k hk => loop_congr fun m _ =>
      loop_congr fun l _ => ?_
    obtain ⟨gp, h3, h4⟩ := hrot i hi r hr
    obtain ⟨ti, h1, h2⟩ := hmap gp h4
    rw [h3, collisionSum_skip c v z n hz hv _ _ ti h1 h2 j k hj hk]

end

/-! ### Examples -/

section Examples

/-- Routines whose results tell all inputs: grid points, strengths, weights and results are integers. -/
def toyEnv : IseEnv Int Int Int Int Int Int Int where
  strengths p z := 100 * p + z.getD 0
  weights p q f sigma cutoff :=
    (p + 10 * q + (f.getD []).sum + sigma.getD 0 + cutoff.getD 0, 0)
  eventClass n g := g - (n + 1)
  fromAverages p a := p * a
  averages p v := v - p
  result p v g z f t := p + v * g + z.getD 0 + (f.getD []).sum + 1000 * t
  degenerate _ v := v

/-- Routines whose zero flags matter when used for other weights. -/
def toyFlagEnv : IseEnv Int Int Int Int Int Int Int :=
  { toyEnv with
    strengths := fun p z => if z = some (p + 1) ∨ z = none then 100 * p else 0
    weights := fun p q f sigma cutoff =>
      (p + 10 * q + (f.getD []).sum + sigma.getD 0 + cutoff.getD 0, p + 1) }

theorem toyEnv_skipping : SkippingHarmless toyEnv := by
  intro p sigma cutoff cls t
  simp [toyEnv]

theorem toyFlagEnv_skipping : SkippingHarmless toyFlagEnv := by
  intro p sigma cutoff cls t
  simp [toyFlagEnv]

/-- The hypotheses of C146_current_partial are met by a history with two grid points, two smearing
widths and two temperatures, and strengths that were set and then dropped. -/
example : ∃ s, iseCalls toyFlagEnv (iseNew none)
      ([.setGridPoint (some 5), .setSigma (some 1) none, .runIntegrationWeights none] ++
        .setGridPoint (some 2) :: [.setStrength 7 none, .setTemperature (some 3),
          .setSigma (some 4) (some 6)] ++
        .runIntegrationWeights (some 1) :: [.runInteraction false, .run, .setTemperature (some 8)] ++
        [.run]) = some s ∧
      iseValue toyFlagEnv s = some (selfEnergyAt toyFlagEnv 2 (some 1) none (some 4) (some 6) 8) ∧
      ∃ a r b, (.setGridPoint (some 2) : IseCall Int Int Int Int Int) :: [.setStrength 7 none,
          .setTemperature (some 3), .setSigma (some 4) (some 6)] = a ++ r :: b ∧
        DropsStrengths r ∧ ∀ c ∈ b, ¬BringsStrengths c :=
  ⟨_, rfl, rfl, [.setGridPoint (some 2), .setStrength 7 none, .setTemperature (some 3)],
    .setSigma (some 4) (some 6), [], rfl, trivial, by simp⟩

/-- The stale values of C146 differ from those of the settings. -/
example : (iseCalls toyEnv (iseNew none) [.setGridPoint (some 1), .setSigma none none,
      .runIntegrationWeights none, .setTemperature (some 3), .run, .setGridPoint (some 2),
      .run]).bind (iseValue toyEnv) ≠ some (selfEnergyAt toyEnv 2 none none none none 3) := by
  decide +kernel

example : (iseCalls toyEnv (iseNew none) [.setGridPoint (some 1), .setSigma none none,
      .setFrequencyPoints (some [1]), .runIntegrationWeights none, .setTemperature (some 3),
      .setFrequencyPoints (some [2]), .run]).bind (iseValue toyEnv) ≠
    some (selfEnergyAt toyEnv 1 none (some [2]) none none 3) := by
  decide +kernel

example : (iseCalls toyFlagEnv (iseNew none) [.setGridPoint (some 1), .setSigma none none,
      .runIntegrationWeights none, .setGridPoint (some 2), .runInteraction false,
      .runIntegrationWeights none, .setTemperature (some 3), .run]).bind (iseValue toyFlagEnv) ≠
    some (selfEnergyAt toyFlagEnv 2 none none none none 3) := by
  decide +kernel

example : (iseCalls toyEnv (iseNew none) [.setGridPoint (some 1), .otherObject 2,
      .setSigma none none, .runIntegrationWeights none, .setTemperature (some 3),
      .run]).bind (iseValue toyEnv) ≠ some (selfEnergyAt toyEnv 1 none none none none 3) := by
  decide +kernel

/-- A run over two grid points, two smearing widths and two temperatures with strengths calculated in
part (C147_run). -/
example : (rtaGridPoints toyFlagEnv
      ⟨[3, 4], [none, some 2], some 9, false, false, fun _ _ _ => none, false, 0, false⟩
      [(1, 0), (2, 0)] (iseNew none)).map (·.2) =
    some [(0, [[selfEnergyAt toyFlagEnv 1 none none none (some 9) 3,
          selfEnergyAt toyFlagEnv 1 none none none (some 9) 4],
        [selfEnergyAt toyFlagEnv 1 none none (some 2) (some 9) 3,
          selfEnergyAt toyFlagEnv 1 none none (some 2) (some 9) 4]]),
      (0, [[selfEnergyAt toyFlagEnv 2 none none none (some 9) 3,
          selfEnergyAt toyFlagEnv 2 none none none (some 9) 4],
        [selfEnergyAt toyFlagEnv 2 none none (some 2) (some 9) 3,
          selfEnergyAt toyFlagEnv 2 none none (some 2) (some 9) 4]])] := by
  decide +kernel

/-- Files for which C147_file and C147_lbte_file_same apply. -/
example : ∀ sigma ∈ [none, some 2], ∃ v z,
    (fun (p : Int) (sigma cutoff : Option Int) => some (toyFlagEnv.strengths p
      (some (toyFlagEnv.weights p p none sigma cutoff).2),
      some (toyFlagEnv.weights p p none sigma cutoff).2)) 1 sigma (some 9) = some (v, z) ∧
    GoodStrengths toyFlagEnv 1 sigma (some 9) v ∧
      (z = none ∨ z = some (toyFlagEnv.weights 1 1 none sigma (some 9)).2) := by
  intro sigma _
  exact ⟨_, _, rfl, Or.inr rfl, Or.inr rfl⟩

/-- A file with other flags: refused in the relaxation time approximation, used in the direct
solution with a result that no settings have. -/
example :
    rtaGridPoint toyFlagEnv
      ⟨[3], [none], none, false, true, fun _ _ _ => some (5, some 7), false, 0, false⟩ 1 (iseNew none)
        0 = none ∧
    (lbteGridPoint toyFlagEnv
      ⟨[3], [none], none, false, true, fun _ _ _ => some (5, some 7), false, 0, false⟩ 1
        (iseNew none)).map (·.2) = some [[3063]] := by
  decide +kernel

/-- `get_imag_self_energy` for two grid points and two batches of frequency points (C148_values). -/
example : (iseAtGridPoints toyFlagEnv none [3] (some [[1, 2], [5]]) [none, some 2] [1, 2]
      (iseNew none)).map (·.2) =
    some [[[[selfEnergyAt toyFlagEnv 1 none (some [1, 2]) none none 3],
          [selfEnergyAt toyFlagEnv 1 none (some [5]) none none 3]],
        [[selfEnergyAt toyFlagEnv 1 none (some [1, 2]) (some 2) none 3],
          [selfEnergyAt toyFlagEnv 1 none (some [5]) (some 2) none 3]]],
      [[[selfEnergyAt toyFlagEnv 2 none (some [1, 2]) none none 3],
          [selfEnergyAt toyFlagEnv 2 none (some [5]) none none 3]],
        [[selfEnergyAt toyFlagEnv 2 none (some [1, 2]) (some 2) none 3],
          [selfEnergyAt toyFlagEnv 2 none (some [5]) (some 2) none 3]]]] := by
  decide +kernel

/-- Two smearing widths and two temperatures: the file of the first width holds the values of the first
temperature for both (C148_at_bands). -/
example : (storeGridPoints true 2 2 0 [fun j t => 10 * j + t]).map
      (fun r => (r.2.map fun f => f.map fun a => (a 0, a 1), r.1.map fun a => (a 0 0, a 1 0))) =
    some ([[(0, 0), (11, 11)]], [(10, 11), (10, 11)]) := by
  decide +kernel

end Examples
end Phono3py.Props
