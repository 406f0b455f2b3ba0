import Verif.Props.InteractionSymmetry
import Verif.Model.InteractionPy
import Verif.Props.DynMatReal
import Mathlib.Algebra.Order.Field.Rat

/-!
C130: the Python and the C implementation of the interaction strength.
-/

set_option linter.unusedSectionVars false

namespace Phono3py.Props
open Phono3py Phono3py.Spec Finset

section
variable {K : Type} [Field K] [LinearOrder K] [IsStrictOrderedRing K]

/-- The components of the sum of wave vectors of a triplet of addresses that the Python
implementation keeps: in each direction none of the three addresses is zero or their sum is. -/
def PhaseKept (t : Fin 3 → V3) : Prop :=
  ∀ d : Fin 3, ((t 0).e d ≠ 0 ∧ (t 1).e d ≠ 0 ∧ (t 2).e d ≠ 0) ∨
    (t 0).e d + (t 1).e d + (t 2).e d = 0

theorem pyQ_eq (a D : V3) : (pyQ a D : Q3 K) = gridQ a D M3.one := by
  funext d
  fin_cases d <;> simp [pyQ, gridQ, Fin.sum_univ_three, M3.one, M3.e, V3.e]

theorem pySumQ_eq (t : Fin 3 → V3) (D : V3) (h : PhaseKept t) (d : Fin 3) :
    (pySumQ t D d : K) = gridQ (t 0) D M3.one d + gridQ (t 1) D M3.one d + gridQ (t 2) D M3.one d := by
  rw [← pyQ_eq, ← pyQ_eq, ← pyQ_eq]
  have key : ∀ a b c n : Int, ((a ≠ 0 ∧ b ≠ 0 ∧ c ≠ 0) ∨ a + b + c = 0) →
      (((if a ≠ 0 ∧ b ≠ 0 ∧ c ≠ 0 then a + b + c else 0 : Int) : K) / n) =
        (a : K) / n + (b : K) / n + (c : K) / n := by
    intro a b c n h
    split_ifs with h1
    · push_cast; ring
    · have h2 := h.resolve_left h1
      have : (a : K) + b + c = 0 := by exact_mod_cast h2
      rw [← add_div, ← add_div, this, Int.cast_zero]
  have hd := h d
  fin_cases d
  · exact key _ _ _ _ hd
  · exact key _ _ _ _ hd
  · exact key _ _ _ _ hd

theorem pyPhase_eq (expi : K → Cplx K) (at' : AtomTriplets K) (q : Fin 3 → Q3 K) (j k p : Nat) :
    pyPhase expi at' q j k p = phaseTable expi at' q 1 p j * phaseTable expi at' q 2 p k := by
  unfold pyPhase phaseTable pyMean phaseFactor
  rw [one_mul]
  simp only [dot3_comm (q 1), dot3_comm (q 2)]

theorem pyElement_eq (expi : K → Cplx K) (at' : AtomTriplets K) (q : Fin 3 → Q3 K) (fc3 : Int → K)
    (i j k x y z : Nat) :
    pyElement expi at' q fc3 i j k x y z =
      r2rElement at' (phaseTable expi at' q 1 i) (phaseTable expi at' q 2 i) fc3 false i j k 0
        (x * 9 + y * 3 + z) := by
  unfold pyElement r2rElement
  simp only [pyPhase_eq, Bool.false_eq_true, if_false, Nat.not_lt_zero, gt_iff_lt, false_and,
    zero_ne_one, mul_comm (fc3 _)]

/-- The two implementations differ by a common phase. -/
theorem pyReciprocal_eq {expi : K → Cplx K} (he : IsPhase expi) (c : Crystal K)
    (hav : c.atoms.makeR0Average = false) (positions : Nat → Fin 3 → K) (t : Fin 3 → V3) {D : V3}
    (hD : PosMesh D) (hkept : PhaseKept t) (hsum : MeshTranslation D (t 0 + t 1 + t 2))
    {i : Nat} (hpos : ∃ z : Fin 3 → Int, ∀ d, shortest c 0 (c.atoms.p2s i) 0 d =
      positions i d - positions 0 d + z d) (j k x y z : Nat) :
    pyReciprocal expi c.atoms positions t D c.fc3 i j k x y z =
      r2rEntry expi c.atoms (fun m => gridQ (t m) D M3.one) c.fc3 false i j k x y z *
        expi (dot (fun d => gridQ (t 0) D M3.one d + gridQ (t 1) D M3.one d + gridQ (t 2) D M3.one d)
          (positions 0)) := by
  obtain ⟨w, hw⟩ := hpos
  have hint : ∀ d, ∃ z : Int, (gridQ (t 0) D M3.one d + gridQ (t 1) D M3.one d +
      gridQ (t 2) D M3.one d : K) = z := by
    intro d
    obtain ⟨z, hz⟩ := gridQ_mesh (K := K) hD M3.one hsum d
    exact ⟨z, by rw [← hz, gridQ_add, gridQ_add]⟩
  choose G hG using hint
  unfold pyReciprocal r2rEntry prePhaseFactor
  dsimp only
  rw [hav, if_neg (by simp), pyElement_eq, dot3_eq, dot3_eq,
    show (pySumQ t D : Q3 K) = fun d => (G d : K) from
      funext fun d => (pySumQ_eq t D hkept d).trans (hG d),
    show (fun d => gridQ (t 0) D M3.one d + gridQ (t 1) D M3.one d + gridQ (t 2) D M3.one d : Fin 3 → K)
      = fun d => (G d : K) from funext hG]
  simp only [pyQ_eq]
  rw [mul_assoc, ← he.add]
  congr 1
  have hsv : c.atoms.svecs (c.atoms.multiplicity (c.atoms.p2s i * c.atoms.numPatom)).2 =
      shortest c 0 (c.atoms.p2s i) 0 := by
    unfold shortest
    simp
  have hds := dot_shift (K := K) G (shortest c 0 (c.atoms.p2s i) 0) (positions i) (positions 0) w hw
  have hcomm : ∀ a b : Fin 3 → K, dot a b = dot b a := fun a b => by
    simp only [dot, Fin.sum_univ_three]; ring
  rw [hsv, hcomm (shortest c 0 (c.atoms.p2s i) 0), hds]
  rw [show dot (fun d => (G d : K)) (positions i) - dot (fun d => (G d : K)) (positions 0) +
      ((∑ d, G d * w d : Int) : K) + dot (fun d => (G d : K)) (positions 0) =
    dot (fun d => (G d : K)) (positions i) + ((∑ d, G d * w d : Int) : K) by ring, he.add, he.int,
    mul_one]

theorem sum_six {M : Type _} [AddCommMonoid M] (np : Nat) (H : Nat → Nat → Nat → M) :
    ∑ a ∈ range (np * 3), ∑ b ∈ range (np * 3), ∑ c ∈ range (np * 3), H a b c =
      ∑ i ∈ range np, ∑ j ∈ range np, ∑ k ∈ range np, ∑ l ∈ range 3, ∑ m ∈ range 3, ∑ n ∈ range 3,
        H (3 * i + l) (3 * j + m) (3 * k + n) := by
  rw [sum_range_three]
  refine Finset.sum_congr rfl fun i _ => ?_
  have e1 : ∀ l ∈ range 3, (∑ b ∈ range (np * 3), ∑ c ∈ range (np * 3), H (3 * i + l) b c) =
      ∑ j ∈ range np, ∑ m ∈ range 3, ∑ k ∈ range np, ∑ n ∈ range 3,
        H (3 * i + l) (3 * j + m) (3 * k + n) := by
    intro l _
    rw [sum_range_three]
    exact Finset.sum_congr rfl fun j _ => Finset.sum_congr rfl fun m _ => sum_range_three _ _
  rw [Finset.sum_congr rfl e1, Finset.sum_comm]
  refine Finset.sum_congr rfl fun j _ => ?_
  have e2 : ∀ l ∈ range 3, (∑ m ∈ range 3, ∑ k ∈ range np, ∑ n ∈ range 3,
      H (3 * i + l) (3 * j + m) (3 * k + n)) = ∑ k ∈ range np, ∑ m ∈ range 3, ∑ n ∈ range 3,
        H (3 * i + l) (3 * j + m) (3 * k + n) := fun l _ => Finset.sum_comm
  rw [Finset.sum_congr rfl e2, Finset.sum_comm]

/-- The sum over atoms and directions is the amplitude. -/
theorem pySumInAtoms_eq {sqrt : K → K} (hs : IsSqrt sqrt) {np : Nat} {masses : Nat → K}
    (hm : ∀ i < np, 0 < masses i) (e0 e1 e2 : Nat → Cplx K)
    (F : Nat → Nat → Nat → Nat → Nat → Nat → Cplx K) :
    pySumInAtoms sqrt np masses e0 e1 e2 F =
      amplitude (np * 3) (fun a => sqrt (masses (a / 3)))
        (fun a b c => F (a / 3) (b / 3) (c / 3) (a % 3) (b % 3) (c % 3)) e0 e1 e2 := by
  unfold pySumInAtoms amplitude
  rw [sum_six]
  simp only [sumLoop_eq, scale_sum]
  refine Finset.sum_congr rfl fun i hi => Finset.sum_congr rfl fun j hj =>
    Finset.sum_congr rfl fun k hk => Finset.sum_congr rfl fun l hl => Finset.sum_congr rfl fun m hm' =>
    Finset.sum_congr rfl fun n hn => ?_
  rw [Finset.mem_range] at hi hj hk hl hm' hn
  have d1 : ∀ a b, b < 3 → (3 * a + b) / 3 = a := fun a b h => by omega
  have d2 : ∀ a b, b < 3 → (3 * a + b) % 3 = b := fun a b h => by omega
  rw [d1 i l hl, d1 j m hm', d1 k n hn, d2 i l hl, d2 j m hm', d2 k n hn,
    sqrt_mul hs (mul_pos (hm i hi) (hm j hj)) (hm k hk), sqrt_mul hs (hm i hi) (hm j hj),
    mul_comm i 3, mul_comm j 3, mul_comm k 3, mul_comm (F i j k l m n)]

/-- One entry. -/
theorem pyStrength_eq {sqrt : K → K} (hs : IsSqrt sqrt) {expi : K → Cplx K} (he : IsPhase expi)
    (c : Crystal K) (hb : c.numBand = c.atoms.numPatom * 3) (hav : c.atoms.makeR0Average = false)
    (hcomp : c.isCompact = false) (hm : ∀ i < c.atoms.numPatom, 0 < c.masses i) (hc : 0 ≤ c.cutoff)
    {positions : Nat → Fin 3 → K} (hpos : ∀ i < c.atoms.numPatom, ∃ z : Fin 3 → Int, ∀ d,
      shortest c 0 (c.atoms.p2s i) 0 d = positions i d - positions 0 d + z d)
    (frequencies : Int → K) (eigenvectors : Int → Cplx K) (triplet : Fin 3 → Int)
    (addresses : Int → V3) {D : V3} (hD : PosMesh D)
    (hkept : PhaseKept fun m => addresses (triplet m))
    (hsum : MeshTranslation D (addresses (triplet 0) + addresses (triplet 1) + addresses (triplet 2)))
    (x y z : Nat) :
    pyStrength sqrt expi c positions frequencies eigenvectors triplet addresses D x y z =
      tripletStrength sqrt expi c frequencies eigenvectors triplet addresses D M3.one
        ![c.bandIndices x, y, z] := by
  unfold pyStrength tripletStrength
  rw [modeStrength_eq, hb]
  dsimp only
  set b : Fin 3 → Nat := ![c.bandIndices x, y, z] with hbdef
  set f : Fin 3 → K := fun m => frequencies (triplet m * ((c.atoms.numPatom * 3 : Nat) : Int) + (b m : Nat))
    with hf
  have hiff : (∀ m, c.cutoff < f m) ↔ f 0 > c.cutoff ∧ f 1 > c.cutoff ∧ f 2 > c.cutoff := by
    rw [Fin.forall_fin_succ, Fin.forall_fin_two]
    rfl
  by_cases hcut : f 0 > c.cutoff ∧ f 1 > c.cutoff ∧ f 2 > c.cutoff
  · rw [if_pos hcut, if_pos (hiff.2 hcut)]
    have p0 := lt_of_le_of_lt hc hcut.1
    have p1 := lt_of_le_of_lt hc hcut.2.1
    have p2 := lt_of_le_of_lt hc hcut.2.2
    have hfff := hs.sq (f 0 * f 1 * f 2) (mul_pos (mul_pos p0 p1) p2).le
    rw [pySumInAtoms_eq hs hm]
    set u := expi (dot (fun d => gridQ (addresses (triplet 0)) D M3.one d +
      gridQ (addresses (triplet 1)) D M3.one d + gridQ (addresses (triplet 2)) D M3.one d)
        (positions 0)) with hu
    set e : Fin 3 → Nat → Cplx K := fun m a => eigenvectors
      (triplet m * ((c.atoms.numPatom * 3 : Nat) : Int) * ((c.atoms.numPatom * 3 : Nat) : Int) +
        ((a * (c.atoms.numPatom * 3) + b m : Nat) : Int)) with he'
    have key : amplitude (c.atoms.numPatom * 3) (fun a => sqrt (c.masses (a / 3)))
        (fun a b' d => pyReciprocal expi c.atoms positions (fun m => addresses (triplet m)) D c.fc3
          (a / 3) (b' / 3) (d / 3) (a % 3) (b' % 3) (d % 3)) (e 0) (e 1) (e 2) =
        u * amplitude (c.atoms.numPatom * 3) (fun a => sqrt (c.masses (a / 3)))
          (tripletFc3 expi c triplet addresses D M3.one) (e 0) (e 1) (e 2) := by
      unfold amplitude
      simp only [Finset.mul_sum]
      refine Finset.sum_congr rfl fun a ha => Finset.sum_congr rfl fun b' hb' =>
        Finset.sum_congr rfl fun d hd => ?_
      rw [Finset.mem_range] at ha hb' hd
      rw [pyReciprocal_eq he c hav positions _ hD hkept hsum (hpos (a / 3) (by omega))]
      unfold tripletFc3
      rw [hb, r2r_at3 expi c.atoms _ c.fc3 c.isCompact rfl ha hb' hd, hcomp, ← hu, scale_eq, scale_eq]
      ring
    rw [key, scale_eq, normSq_mul, normSq_mul, hu, phase_normSq he, one_mul]
    have hn : (⟨1 / sqrt (f 0 * f 1 * f 2), 0⟩ : Cplx K).normSq = 1 / (f 0 * f 1 * f 2) := by
      show 1 / sqrt (f 0 * f 1 * f 2) * (1 / sqrt (f 0 * f 1 * f 2)) + 0 * 0 = _
      rw [mul_zero, add_zero, div_mul_div_comm, hfff, one_mul]
    rw [hn, mul_one_div]
    rfl
  · rw [if_neg hcut, if_neg fun h => hcut (hiff.1 h)]

/-! ## C130 -/

theorem stores_value {α : Type _} (a : Int → α) (n0 nb : Nat) (F : Nat → Nat → Nat → α) {x y z : Nat}
    (hx : x < n0) (hy : y < nb) (hz : z < nb) :
    runWrites a (loop n0 fun x => loop nb fun y => loop nb fun z =>
      [(((x * nb * nb + y * nb + z : Nat) : Int), F x y z)]) (at3 nb nb x y z : Nat) = F x y z := by
  have e : ∀ x y z : Nat, x * nb * nb + y * nb + z = at3 nb nb x y z := by
    intro x y z
    unfold at3
    ring
  simp only [e]
  refine runWrites_value a _ ?_ (((at3 nb nb x y z : Nat) : Int), F x y z) ?_
  · intro u hu w hw h
    simp only [mem_loop, List.mem_singleton] at hu hw
    obtain ⟨x1, _, y1, hy1, z1, hz1, rfl⟩ := hu
    obtain ⟨x2, _, y2, hy2, z2, hz2, rfl⟩ := hw
    obtain ⟨rfl, rfl, rfl⟩ := at3_inj hy1 hz1 hy2 hz2 (Int.ofNat.inj h)
    rfl
  · simp only [mem_loop, List.mem_singleton]
    exact ⟨x, hx, y, hy, z, hz, rfl⟩

/-- C130: with both languages `run` gives the same interaction strengths, when: the array of force
constants has a row for every atom of the supercell; the grid is a conventional mesh (`Q` is the
unit matrix); strengths are not symmetrised and not averaged over the choice of the first atom; and
in each direction where the addresses of a triplet do not sum to zero none of them is zero. It says
so of the entries that the C implementation is not told to skip. -/
theorem C130_languages_partial (o : InteractionObject K) (hs : IsSqrt o.sqrt) (he : IsPhase o.expi)
    (hb : o.crystal.numBand = o.crystal.atoms.numPatom * 3)
    (hav : o.crystal.atoms.makeR0Average = false) (hcomp : o.crystal.isCompact = false)
    (hrows : ∀ i < o.crystal.atoms.numPatom, o.crystal.atoms.p2s i < o.rows)
    (hsym : o.symmetrize = false) (hQ : o.Q = M3.one)
    (hm : ∀ i < o.crystal.atoms.numPatom, 0 < o.crystal.masses i) (hc : 0 ≤ o.crystal.cutoff)
    (hpos : ∀ i < o.crystal.atoms.numPatom, ∃ z : Fin 3 → Int, ∀ d,
      shortest o.crystal 0 (o.crystal.atoms.p2s i) 0 d = o.positions i d - o.positions 0 d + z d)
    (hD : PosMesh o.D) (triplets : Nat → Fin 3 → Int) (numTriplets : Nat)
    (hkept : ∀ i < numTriplets, PhaseKept fun m => o.addresses (triplets i m))
    (hsum : ∀ i < numTriplets, MeshTranslation o.D (o.addresses (triplets i 0) +
      o.addresses (triplets i 1) + o.addresses (triplets i 2)))
    (gZero before before' : Option (Nat → Int → Bool)) :
    ∃ r r', interactionRun o .c triplets numTriplets gZero before = some r ∧
      interactionRun o .python triplets numTriplets gZero before' = some r' ∧
      ∀ i < numTriplets, ∀ x < o.numBand0, ∀ y < o.crystal.numBand, ∀ z < o.crystal.numBand,
        (∀ g, gZero = some g → g i (at3 o.crystal.numBand o.crystal.numBand x y z : Nat) = false) →
        r'.strength i (at3 o.crystal.numBand o.crystal.numBand x y z : Nat) =
          r.strength i (at3 o.crystal.numBand o.crystal.numBand x y z : Nat) := by
  cases hcon : o.constant with
  | some v =>
    refine ⟨⟨fun _ _ => v / ((o.D.x * o.D.y * o.D.z : Int) : K), before⟩,
      ⟨fun _ _ => v / ((o.D.x * o.D.y * o.D.z : Int) : K), before'⟩, ?_, ?_, fun _ _ _ _ _ _ _ _ _ => rfl⟩
    · simp only [interactionRun, hcon]
    · simp only [interactionRun, hcon]
  | none =>
    have hrows' : ¬(0 < numTriplets ∧ ((List.range o.crystal.atoms.numPatom).any fun i =>
        decide (o.rows ≤ o.crystal.atoms.p2s i)) = true) := by
      rintro ⟨_, h⟩
      obtain ⟨i, hi, h⟩ := List.any_eq_true.1 h
      have := hrows i (List.mem_range.1 hi)
      rw [decide_eq_true_eq] at h
      omega
    obtain ⟨r', hr'⟩ : ∃ r', interactionRunPy o triplets numTriplets before' = some r' := by
      unfold interactionRunPy
      rw [if_neg hrows']
      exact ⟨_, rfl⟩
    refine ⟨interactionRunC o triplets gZero, r', ?_, ?_, ?_⟩
    · simp only [interactionRun, hcon]
    · simp only [interactionRun, hcon, hr']
    · intro i hi x hx y hy z hz hfree
      unfold interactionRunPy at hr'
      rw [if_neg hrows', Option.some.injEq] at hr'
      subst hr'
      unfold interactionRunC
      dsimp only
      rw [← hb, stores_value _ _ _ _ hx hy hz,
        pyStrength_eq hs he o.crystal hb hav hcomp hm hc hpos _ _ _ _ hD (hkept i hi) (hsum i hi),
        hsym, hQ, C40_value _ _ _ _ _ _ _ _ _ _ _ _ _ hx hy hz]
      cases gZero with
      | none => rw [if_neg (by simp)]
      | some g =>
        have := hfree g rfl
        simp only [Bool.false_eq_true, if_false, this]

/-- C130 fails for compact force constants: the Python implementation raises `IndexError` when the
array of force constants has no row for some atom of the primitive cell. -/
theorem C130_compact_raises (o : InteractionObject K) (hcon : o.constant = none)
    (h : ∃ i < o.crystal.atoms.numPatom, o.rows ≤ o.crystal.atoms.p2s i)
    (triplets : Nat → Fin 3 → Int) {numTriplets : Nat} (hn : 0 < numTriplets)
    (gZero before : Option (Nat → Int → Bool)) :
    interactionRun o .python triplets numTriplets gZero before = none := by
  obtain ⟨i, hi, h⟩ := h
  simp only [interactionRun, hcon, interactionRunPy]
  rw [if_pos ⟨hn, List.any_eq_true.2 ⟨i, List.mem_range.2 hi, decide_eq_true h⟩⟩]

/-- C130 fails for the flags of entries to skip: the Python implementation ignores the argument and
leaves the flags of the previous run in place, and so does a run with constant strengths, in either
language. The C implementation stores the argument. -/
theorem C130_stale_flags (o : InteractionObject K) (lang : Lang) (triplets : Nat → Fin 3 → Int)
    (numTriplets : Nat) (gZero before : Option (Nat → Int → Bool)) {r : InteractionResult K}
    (h : interactionRun o lang triplets numTriplets gZero before = some r) :
    r.gZero = if o.constant = none ∧ lang = .c then gZero else before := by
  unfold interactionRun at h
  cases hcon : o.constant with
  | some v =>
    rw [hcon, Option.some.injEq] at h
    subst h
    simp
  | none =>
    rw [hcon] at h
    cases lang with
    | c =>
      dsimp only at h
      rw [Option.some.injEq] at h
      subst h
      rw [if_pos ⟨rfl, rfl⟩]
      rfl
    | python =>
      unfold interactionRunPy at h
      dsimp only at h
      split_ifs at h with hr
      rw [Option.some.injEq] at h
      subst h
      simp

/-- C130: with constant strengths every entry is the constant divided by the number of grid points,
in either language and for every triplet. -/
theorem C130_constant (o : InteractionObject K) {v : K} (hcon : o.constant = some v) (lang : Lang)
    (triplets : Nat → Fin 3 → Int) (numTriplets : Nat) (gZero before : Option (Nat → Int → Bool)) :
    ∃ r, interactionRun o lang triplets numTriplets gZero before = some r ∧
      ∀ i p, r.strength i p * ((o.D.x * o.D.y * o.D.z : Int) : K) =
        if o.D.x * o.D.y * o.D.z = 0 then 0 else v := by
  refine ⟨⟨fun _ _ => v / ((o.D.x * o.D.y * o.D.z : Int) : K), before⟩, ?_, fun i p => ?_⟩
  · simp only [interactionRun, hcon]
  · dsimp only
    split_ifs with h
    · rw [h, Int.cast_zero, mul_zero]
    · exact div_mul_cancel₀ _ (Int.cast_ne_zero.2 h)

end

section Witness

/-- `exp(2 pi i x)` where `2 x` is an integer. -/
def halfPhase (x : ℚ) : Cplx ℚ := ⟨if ⌊2 * x⌋ % 2 = 0 then 1 else -1, 0⟩

/-- At half-integers the table is the exponential. -/
theorem halfPhase_real (n : Int) :
    (((halfPhase ((n : ℚ) / 2)).re : ℚ) : ℝ) = (realPhase ((n : ℝ) / 2)).re ∧
      (((halfPhase ((n : ℚ) / 2)).im : ℚ) : ℝ) = (realPhase ((n : ℝ) / 2)).im := by
  have e : 2 * ((n : ℚ) / 2) = (n : ℚ) := by ring
  have e' : 2 * Real.pi * ((n : ℝ) / 2) = n * Real.pi := by ring
  unfold halfPhase realPhase
  rw [e, Int.floor_intCast, e', Real.sin_int_mul_pi]
  refine ⟨?_, by simp⟩
  rcases Int.even_or_odd n with h | h
  · rw [if_pos (Int.even_iff.1 h)]
    obtain ⟨k, rfl⟩ := h
    have : ((k + k : Int) : ℝ) * Real.pi = k * (2 * Real.pi) := by push_cast; ring
    rw [this, Real.cos_int_mul_two_pi]
    simp
  · rw [if_neg (by rw [Int.odd_iff.1 h]; decide)]
    obtain ⟨k, rfl⟩ := h
    have : ((2 * k + 1 : Int) : ℝ) * Real.pi = k * (2 * Real.pi) + Real.pi := by push_cast; ring
    rw [this, Real.cos_int_mul_two_pi_add_pi]
    simp

variable {K : Type} [Field K] [LinearOrder K] [IsStrictOrderedRing K]

/-- Two atoms at the origin and at half of the second lattice vector; the supercell is the
primitive cell. Only displacements of one atom along the first axis couple. -/
def pairPosition (i : Nat) : Q3 K := ![0, (i : K) / 2, 0]

def twoSiteCell : Crystal K where
  atoms :=
    { svecs := fun k => ![0, ((k / 2 - k % 2 : Int) : K) / 2, 0]
      multiplicity := fun k => (1, k)
      numSatom := 2
      numPatom := 2
      p2s := fun i => i
      s2p := fun i => i
      makeR0Average := false
      allShortest := fun _ => true }
  fc3 := fun p => if p = 0 ∨ p = 7 * 27 then 1 else 0
  isCompact := false
  masses := fun _ => 1
  bandIndices := fun b => b
  numBand := 6
  cutoff := 0

/-- Two modes that mix the two atoms. -/
def pairModes (p : Int) : Cplx K :=
  if p % 36 = 0 then ⟨3 / 5, 0⟩ else if p % 36 = 18 then ⟨4 / 5, 0⟩
  else if p % 36 = 3 then ⟨-4 / 5, 0⟩ else if p % 36 = 21 then ⟨3 / 5, 0⟩
  else if p % 36 / 6 = p % 6 then 1 else 0

def pairObject (sqrt : K → K) (expi : K → Cplx K) (addresses : Int → V3) : InteractionObject K where
  sqrt := sqrt
  expi := expi
  crystal := twoSiteCell
  positions := pairPosition
  rows := 2
  numBand0 := 6
  frequencies := fun _ => 1
  eigenvectors := pairModes
  addresses := addresses
  D := ⟨3, 2, 1⟩
  Q := M3.one
  symmetrize := false
  unit := 1
  constant := none
  mem := fun _ => 0

/-- Hypotheses of C130 for two atoms and the triplet of grid points `(1, 0, 0)`, `(1, 0, 0)` and
`(1, 0, 0)`, which sum to a lattice vector. -/
example : ∃ r r', interactionRun (pairObject Real.sqrt realPhase fun _ => ⟨1, 0, 0⟩) .c
      (fun _ _ => 0) 1 none none = some r ∧
    interactionRun (pairObject Real.sqrt realPhase fun _ => ⟨1, 0, 0⟩) .python
      (fun _ _ => 0) 1 none none = some r' ∧
    ∀ i < 1, ∀ x < 6, ∀ y < 6, ∀ z < 6, (∀ g : Nat → Int → Bool, none = some g → g i (at3 6 6 x y z : Nat) = false) →
      r'.strength i (at3 6 6 x y z : Nat) = r.strength i (at3 6 6 x y z : Nat) :=
  C130_languages_partial (pairObject Real.sqrt realPhase fun _ => ⟨1, 0, 0⟩) realSqrt_isSqrt
    realPhase_isPhase rfl rfl rfl (by decide) rfl rfl (fun _ _ => zero_lt_one) (le_refl _)
    (by
      intro i hi
      have hi' : i < 2 := hi
      refine ⟨fun _ => 0, fun d => ?_⟩
      interval_cases i <;> fin_cases d <;>
        simp [shortest, pairObject, twoSiteCell, pairPosition])
    ⟨by decide, by decide, by decide⟩ (fun _ _ => 0) 1
    (by
      intro i _ d
      show ((V3.e ⟨1, 0, 0⟩ d ≠ 0 ∧ V3.e ⟨1, 0, 0⟩ d ≠ 0 ∧ V3.e ⟨1, 0, 0⟩ d ≠ 0) ∨
        V3.e ⟨1, 0, 0⟩ d + V3.e ⟨1, 0, 0⟩ d + V3.e ⟨1, 0, 0⟩ d = 0)
      revert d
      decide)
    (fun i _ => (by decide : MeshTranslation ⟨3, 2, 1⟩ (⟨1, 0, 0⟩ + ⟨1, 0, 0⟩ + ⟨1, 0, 0⟩))) none none none

/-- C130 fails for a triplet whose addresses sum to a lattice vector along a direction where one of
them is zero. The triplet `(1, 5, 5)` is one that the code makes for the mesh `3 x 2 x 1`; the
addresses sum to `(3, -2, 0)` and the first one is `(1, 0, 0)`. Python gives `(91/125)^2`, C gives
`(37/125)^2`. -/
theorem C130_phase_dropped :
    ∃ bz, bzGrid exampleCubic true exampleInit = some bz ∧
      ∃ T, getTripletsAtQ exampleCubic bz true exampleTwoFold 1 true true = some T ∧
        ((1, 5, 5) : Int × Int × Int) ∈ T.triplets ∧
        ∃ r r', interactionRun (pairObject (fun x => x) halfPhase bz.addresses) .c
            (fun _ => ![1, 5, 5]) 1 none none = some r ∧
          interactionRun (pairObject (fun x => x) halfPhase bz.addresses) .python
            (fun _ => ![1, 5, 5]) 1 none none = some r' ∧
          r.strength 0 0 = (37 / 125) ^ 2 ∧ r'.strength 0 0 = (91 / 125) ^ 2 := by
  have hx : ((bzGrid exampleCubic true exampleInit).bind fun bz =>
      (getTripletsAtQ exampleCubic bz true exampleTwoFold 1 true true).bind fun T =>
        (interactionRun (pairObject (fun x => x) halfPhase bz.addresses) .c
          (fun _ => ![1, 5, 5]) 1 none none).bind fun r =>
        (interactionRun (pairObject (fun x => x) halfPhase bz.addresses) .python
          (fun _ => ![1, 5, 5]) 1 none none).map fun r' =>
          decide (((1, 5, 5) : Int × Int × Int) ∈ T.triplets ∧ r.strength 0 0 = (37 / 125) ^ 2 ∧
            r'.strength 0 0 = (91 / 125) ^ 2)) = some true := by
    decide +kernel
  obtain ⟨bz, h1, hx⟩ := Option.bind_eq_some_iff.1 hx
  obtain ⟨T, h2, hx⟩ := Option.bind_eq_some_iff.1 hx
  obtain ⟨r, h3, hx⟩ := Option.bind_eq_some_iff.1 hx
  obtain ⟨r', h4, hx⟩ := Option.map_eq_some_iff.1 hx
  obtain ⟨a, b, c⟩ := of_decide_eq_true hx
  exact ⟨bz, h1, T, h2, a, r, r', h3, h4, b, c⟩

/-- One atom in a supercell of two along the second axis. -/
def generalCell : Crystal ℚ where
  atoms :=
    { svecs := fun k => if k = 1 then ![0, 1, 0] else if k = 2 then ![0, -1, 0] else ![0, 0, 0]
      multiplicity := fun k => if k = 0 then (1, 0) else (2, 1)
      numSatom := 2
      numPatom := 1
      p2s := fun _ => 0
      s2p := fun _ => 0
      makeR0Average := false
      allShortest := fun _ => true }
  fc3 := fun p => if p = 0 then 2 else if p = 27 then 1 else 0
  isCompact := false
  masses := fun _ => 1
  bandIndices := fun b => b
  numBand := 3
  cutoff := 0

/-- The grid of two points whose second point is `(0, 1/2, 1/2)`. -/
def generalObject : InteractionObject ℚ where
  sqrt := fun x => x
  expi := halfPhase
  crystal := generalCell
  positions := fun _ => ![0, 0, 0]
  rows := 2
  numBand0 := 3
  frequencies := fun _ => 1
  eigenvectors := fun p => if p % 9 / 3 = p % 3 then 1 else 0
  addresses := fun g => ⟨0, 0, g⟩
  D := ⟨1, 1, 2⟩
  Q := ⟨1, 0, 0, 0, 1, 1, 0, 0, 1⟩
  symmetrize := false
  unit := 1
  constant := none
  mem := fun _ => 0

/-- C130 fails on a generalised regular grid: the Python implementation divides addresses by the
diagonal and leaves out the matrix `Q`. The addresses `0`, `1` and `-1` of the triplet sum to
zero; Python gives `9`, C gives `1`. -/
theorem C130_general_grid :
    ∃ r r', interactionRun generalObject .c (fun _ => ![0, 1, -1]) 1 none none = some r ∧
      interactionRun generalObject .python (fun _ => ![0, 1, -1]) 1 none none = some r' ∧
      r.strength 0 0 = 1 ∧ r'.strength 0 0 = 9 := by
  refine ⟨interactionRunC generalObject (fun _ => ![0, 1, -1]) none, _, rfl, rfl, ?_, ?_⟩
  · decide +kernel
  · decide +kernel

end Witness
end Phono3py.Props
