import Verif.Lemmas.CommensurateFc3
import Verif.Props.AllShortest

/-!
# Property C167

C167: fc3 in reciprocal space and interaction strengths without the average over the first atom.
-/

set_option linter.unusedSectionVars false

namespace Phono3py
namespace Props

open Spec

section
variable {K : Type} [Field K] [LinearOrder K] [IsStrictOrderedRing K]
variable {g : Geometry K} {tol : K} {p2p : Int → Nat} {perms : List (Nat → Nat)}

/-- C167: without the average, at wave vectors that fit into the supercell, each element of fc3 in
reciprocal space is the Fourier sum over the atoms of the supercell, up to the phase of the first atom
of the primitive cell, which is the same for all elements. -/
theorem C167_fourier {expi : K → Cplx K} (he : IsPhase expi) (c : Crystal K)
    (hband : c.numBand = c.atoms.numPatom * 3) (ht : 0 < tol)
    (hs : IsSupercell c.atoms p2p perms g) (hv : ListsShortest c.atoms g tol)
    {Φ : Nat → Nat → Nat → Nat → Nat → Nat → K} (hΦ : HoldsSymmetricFc3 c perms Φ)
    (t : Fin 3 → Int) (addresses : Int → V3) (D : V3) (Q : M3)
    (hq : ∃ z : Fin 3 → Int, ∀ d : Fin 3,
      (gridQ (addresses (t 0)) D Q d + gridQ (addresses (t 1)) D Q d +
        gridQ (addresses (t 2)) D Q d : K) = z d)
    (hcom : ∀ m, g.Commensurate (gridQ (addresses (t m)) D Q))
    {a b d : Nat} (ha : a < c.numBand) (hb : b < c.numBand) (hd : d < c.numBand) :
    tripletFc3 expi (notAveraged c) t addresses D Q a b d =
      fourierFc3 expi g c.atoms Φ (gridQ (addresses (t 0)) D Q) (gridQ (addresses (t 1)) D Q)
        (gridQ (addresses (t 2)) D Q) (a / 3) (b / 3) (d / 3) (a % 3) (b % 3) (d % 3) *
      expi (-dot (fun x => gridQ (addresses (t 0)) D Q x + gridQ (addresses (t 1)) D Q x +
        gridQ (addresses (t 2)) D Q x) (g.pos (c.atoms.p2s 0).toNat)) := by
  have h3 : ∀ x, x % 3 < 3 := fun x => Nat.mod_lt _ (by norm_num)
  have off : tripletFc3 expi (notAveraged c) t addresses D Q a b d =
      legSum expi (averaged c fun _ => false) (fun m => gridQ (addresses (t m)) D Q) 0 (a / 3)
        (b / 3) (d / 3) (a % 3) (b % 3) (d % 3) := by
    rw [legSum_zero]
    unfold tripletFc3
    rw [show (notAveraged c).numBand = c.numBand from rfl,
      r2r_at3 expi (notAveraged c).atoms _ _ _ hband ha hb hd]
    rfl
  rw [off]
  exact legSum_commensurate he (averaged c fun _ => false)
    ⟨hs.integer, hs.first, hs.others, hs.distinct, hs.translation, hs.unique⟩ ⟨hv.all, hv.once⟩ ht
    (Φ := Φ) ⟨hΦ.holds, hΦ.first, hΦ.last, hΦ.translation⟩
    (q := fun m => gridQ (addresses (t m)) D Q) hq (hcom 1) (hcom 2)
    (show a / 3 < c.atoms.numPatom by omega) (h3 a) (h3 b) (h3 d)

theorem notAveraged_first {expi : K → Cplx K} (he : IsPhase expi) (c : Crystal K)
    (hband : c.numBand = c.atoms.numPatom * 3) (ht : 0 < tol)
    (hs : IsSupercell c.atoms p2p perms g) (hv : ListsShortest c.atoms g tol)
    {Φ : Nat → Nat → Nat → Nat → Nat → Nat → K} (hΦ : HoldsSymmetricFc3 c perms Φ)
    (t0 t1 t2 : Int) (addresses : Int → V3) (D : V3) (Q : M3)
    (hq : ∃ z : Fin 3 → Int, ∀ d : Fin 3,
      (gridQ (addresses t0) D Q d + gridQ (addresses t1) D Q d +
        gridQ (addresses t2) D Q d : K) = z d)
    (h0 : g.Commensurate (gridQ (addresses t0) D Q)) (h1 : g.Commensurate (gridQ (addresses t1) D Q))
    (h2 : g.Commensurate (gridQ (addresses t2) D Q))
    {a b d : Nat} (ha : a < c.numBand) (hb : b < c.numBand) (hd : d < c.numBand) :
    tripletFc3 expi (notAveraged c) ![t1, t0, t2] addresses D Q b a d =
      tripletFc3 expi (notAveraged c) ![t0, t1, t2] addresses D Q a b d := by
  have h3 : ∀ x, x % 3 < 3 := fun x => Nat.mod_lt _ (by norm_num)
  have hq' : ∃ z : Fin 3 → Int, ∀ d : Fin 3,
      (gridQ (addresses t1) D Q d + gridQ (addresses t0) D Q d +
        gridQ (addresses t2) D Q d : K) = z d := by
    obtain ⟨z, h⟩ := hq
    exact ⟨z, fun d => by rw [← h]; ring⟩
  have e1 := C167_fourier he c hband ht hs hv hΦ ![t1, t0, t2] addresses D Q hq'
    (fun m => by fin_cases m <;> assumption) hb ha hd
  have e2 := C167_fourier he c hband ht hs hv hΦ ![t0, t1, t2] addresses D Q hq
    (fun m => by fin_cases m <;> assumption) ha hb hd
  refine e1.trans (Eq.trans ?_ e2.symm)
  show fourierFc3 expi g c.atoms Φ (gridQ (addresses t1) D Q) (gridQ (addresses t0) D Q)
      (gridQ (addresses t2) D Q) (b / 3) (a / 3) (d / 3) (b % 3) (a % 3) (d % 3) *
      expi (-dot (fun x => gridQ (addresses t1) D Q x + gridQ (addresses t0) D Q x +
        gridQ (addresses t2) D Q x) (g.pos (c.atoms.p2s 0).toNat)) =
    fourierFc3 expi g c.atoms Φ (gridQ (addresses t0) D Q) (gridQ (addresses t1) D Q)
      (gridQ (addresses t2) D Q) (a / 3) (b / 3) (d / 3) (a % 3) (b % 3) (d % 3) *
      expi (-dot (fun x => gridQ (addresses t0) D Q x + gridQ (addresses t1) D Q x +
        gridQ (addresses t2) D Q x) (g.pos (c.atoms.p2s 0).toNat))
  rw [fourierFc3_first he c hs hΦ hq h0 h1 h2 (by omega) (by omega) (h3 a) (h3 b) (h3 d)]
  refine congrArg (fun w : Fin 3 → K => _ * expi (-dot w _)) ?_
  funext x
  ring

/-- C167: at wave vectors that fit into the supercell the average over the first atom changes no
element of fc3 in reciprocal space. -/
theorem C167_same (sqrt : K → K) {expi : K → Cplx K} (he : IsPhase expi) (c : Crystal K)
    (hband : c.numBand = c.atoms.numPatom * 3) (lattice : Fin 3 → Fin 3 → K)
    (hlen : g.length = cartesianLength sqrt lattice) (ht : 0 < tol)
    (hs : IsSupercell c.atoms p2p perms g) (hv : ListsShortest c.atoms g tol)
    {Φ : Nat → Nat → Nat → Nat → Nat → Nat → K} (hΦ : HoldsSymmetricFc3 c perms Φ)
    {A : Int → Bool} (hA : getAllShortest sqrt c.atoms p2p perms lattice tol = some A)
    (t : Fin 3 → Int) (addresses : Int → V3) (D : V3) (Q : M3)
    (hq : ∃ z : Fin 3 → Int, ∀ d : Fin 3,
      (gridQ (addresses (t 0)) D Q d + gridQ (addresses (t 1)) D Q d +
        gridQ (addresses (t 2)) D Q d : K) = z d)
    (hcom : ∀ m, g.Commensurate (gridQ (addresses (t m)) D Q))
    {a b d : Nat} (ha : a < c.numBand) (hb : b < c.numBand) (hd : d < c.numBand) :
    tripletFc3 expi (averaged c A) t addresses D Q a b d =
      tripletFc3 expi (notAveraged c) t addresses D Q a b d := by
  rw [C166_average sqrt he c hband lattice hlen ht hs hv hΦ hA t addresses D Q hq ha hb hd]
  have e' : (![t 0, t 1, t 2] : Fin 3 → Int) = t := by
    funext m
    fin_cases m <;> rfl
  have hq2 : ∃ z : Fin 3 → Int, ∀ d : Fin 3,
      (gridQ (addresses (t 0)) D Q d + gridQ (addresses (t 2)) D Q d +
        gridQ (addresses (t 1)) D Q d : K) = z d := by
    obtain ⟨z, h⟩ := hq
    exact ⟨z, fun d => by rw [← h]; ring⟩
  have k1 := notAveraged_first he c hband ht hs hv hΦ (t 0) (t 1) (t 2) addresses D Q hq (hcom 0)
    (hcom 1) (hcom 2) ha hb hd
  have k2 := tripletFc3_last expi c hband hΦ hs (t 2) (t 0) (t 1) addresses D Q hd ha hb
  have k3 := notAveraged_first he c hband ht hs hv hΦ (t 0) (t 2) (t 1) addresses D Q hq2 (hcom 0)
    (hcom 2) (hcom 1) ha hd hb
  have k4 := tripletFc3_last expi c hband hΦ hs (t 0) (t 1) (t 2) addresses D Q ha hb hd
  rw [k1, k2, k3, k4, e']
  generalize tripletFc3 expi (notAveraged c) t addresses D Q a b d = w
  ext <;> simp [Cplx.scale] <;> ring

/-- C167: at wave vectors that fit into the supercell, the interaction strength does not depend on the
order of the three phonons, also without the average, and it is that with the average. -/
theorem C167_symmetric_partial (sqrt : K → K) {expi : K → Cplx K} (he : IsPhase expi) (c : Crystal K)
    (hband : c.numBand = c.atoms.numPatom * 3) (lattice : Fin 3 → Fin 3 → K)
    (hlen : g.length = cartesianLength sqrt lattice) (ht : 0 < tol)
    (hs : IsSupercell c.atoms p2p perms g) (hv : ListsShortest c.atoms g tol)
    {Φ : Nat → Nat → Nat → Nat → Nat → Nat → K} (hΦ : HoldsSymmetricFc3 c perms Φ)
    {A : Int → Bool} (hA : getAllShortest sqrt c.atoms p2p perms lattice tol = some A)
    (frequencies : Int → K) (eigenvectors : Int → Cplx K)
    (t : Fin 3 → Int) (addresses : Int → V3) (D : V3) (Q : M3)
    (hq : ∃ z : Fin 3 → Int, ∀ d : Fin 3,
      (gridQ (addresses (t 0)) D Q d + gridQ (addresses (t 1)) D Q d +
        gridQ (addresses (t 2)) D Q d : K) = z d)
    (hcom : ∀ m, g.Commensurate (gridQ (addresses (t m)) D Q))
    (band : Fin 3 → Nat) (σ : Equiv.Perm (Fin 3)) :
    tripletStrength sqrt expi (notAveraged c) frequencies eigenvectors (t ∘ σ) addresses D Q
      (band ∘ σ) =
    tripletStrength sqrt expi (notAveraged c) frequencies eigenvectors t addresses D Q band ∧
    tripletStrength sqrt expi (averaged c A) frequencies eigenvectors t addresses D Q band =
    tripletStrength sqrt expi (notAveraged c) frequencies eigenvectors t addresses D Q band := by
  have same : ∀ (t : Fin 3 → Int) (band : Fin 3 → Nat), (∃ z : Fin 3 → Int, ∀ d : Fin 3,
      (gridQ (addresses (t 0)) D Q d + gridQ (addresses (t 1)) D Q d +
        gridQ (addresses (t 2)) D Q d : K) = z d) →
      (∀ m, g.Commensurate (gridQ (addresses (t m)) D Q)) →
      tripletStrength sqrt expi (averaged c A) frequencies eigenvectors t addresses D Q band =
      tripletStrength sqrt expi (notAveraged c) frequencies eigenvectors t addresses D Q band := by
    intro t band hq hcom
    unfold tripletStrength
    refine modeStrength_congr (fun _ => rfl) (congrArg Cplx.normSq ?_)
    refine amplitude_congr (fun a ha b hb d hd => ?_) (fun _ _ => rfl) (fun _ _ => rfl)
      (fun _ _ => rfl)
    exact C167_same sqrt he c hband lattice hlen ht hs hv hΦ hA t addresses D Q hq hcom ha hb hd
  have hqσ : ∃ z : Fin 3 → Int, ∀ d : Fin 3,
      (gridQ (addresses ((t ∘ σ) 0)) D Q d + gridQ (addresses ((t ∘ σ) 1)) D Q d +
        gridQ (addresses ((t ∘ σ) 2)) D Q d : K) = z d := by
    obtain ⟨z, h⟩ := hq
    refine ⟨z, fun d => ?_⟩
    rw [← h]
    have := Equiv.sum_comp σ fun m => (gridQ (addresses (t m)) D Q d : K)
    rw [Fin.sum_univ_three, Fin.sum_univ_three] at this
    exact this
  refine ⟨?_, same t band hq hcom⟩
  rw [← same t band hq hcom, ← same (t ∘ σ) (band ∘ σ) hqσ fun m => hcom (σ m)]
  exact C166_symmetric sqrt he c hband lattice hlen ht hs hv hΦ hA frequencies eigenvectors t
    addresses D Q hq band σ

end

/-! ## A concrete case -/

section Examples

/-- Force constants of two atoms in a row, in one direction only. -/
def pairFc3 (r s t x y z : Nat) : Int :=
  if x = 0 ∧ y = 0 ∧ z = 0 then (if r = s ∧ s = t then 2 else 1) else 0

/-- A crystal with one atom in the primitive cell, in a supercell of two cells.  The second atom has
two images at the same distance from the first. -/
noncomputable def pair : Crystal ℝ where
  atoms :=
    { svecs := fun k => ![((if k = 2 then -1 else k : Int) : ℝ), 0, 0]
      multiplicity := fun k => if k = 0 then (1, 0) else (2, 1)
      numSatom := 2
      numPatom := 1
      p2s := fun _ => 0
      s2p := fun _ => 0
      makeR0Average := true
      allShortest := fun _ => false }
  fc3 := fun p => (pairFc3 0 (p / 54).toNat (p / 27 % 2).toNat (p / 9 % 3).toNat (p / 3 % 3).toNat
    (p % 3).toNat : Int)
  isCompact := true
  masses := fun _ => 1
  bandIndices := fun b => b
  numBand := 3
  cutoff := 0

/-- The two translations. -/
def pairPerms : List (Nat → Nat) := [fun s => s, fun s => (s + 1) % 2]

/-- The positions and translations of the pair. -/
noncomputable def pairGeometry : Geometry ℝ where
  pos s := ![(s : ℝ), 0, 0]
  lattice :=
    { carrier := {v | ∃ a b c : Int, v = ![2 * (a : ℝ), b, c]}
      zero_mem' := ⟨0, 0, 0, by funext d; fin_cases d <;> simp⟩
      add_mem' := by
        rintro _ _ ⟨a, b, c, rfl⟩ ⟨a', b', c', rfl⟩
        refine ⟨a + a', b + b', c + c', ?_⟩
        funext d
        fin_cases d <;> simp
        ring
      neg_mem' := by
        rintro _ ⟨a, b, c, rfl⟩
        refine ⟨-a, -b, -c, ?_⟩
        funext d
        fin_cases d <;> simp }
  length := cartesianLength Real.sqrt ringLattice

theorem mem_pairLattice (v : Fin 3 → ℝ) :
    v ∈ pairGeometry.lattice ↔ ∃ a b c : Int, v = ![2 * (a : ℝ), b, c] := Iff.rfl

theorem pair_isSupercell : IsSupercell pair.atoms (fun _ => 0) pairPerms pairGeometry where
  integer := by
    rintro _ ⟨a, b, c, rfl⟩
    refine ⟨![2 * a, b, c], fun d => ?_⟩
    fin_cases d <;> simp
  first := by
    intro i hi
    have hi' : i < 1 := hi
    obtain rfl : i = 0 := by omega
    exact ⟨le_refl _, by show (0 : Int) < ((2 : Nat) : Int); norm_num, rfl, rfl⟩
  others := by
    intro s hs
    refine ⟨by show 0 < 1; norm_num, rfl, ![s, 0, 0], fun d => ?_⟩
    fin_cases d <;> simp [pairGeometry, pair]
  distinct := by
    rintro s hs t ht h
    obtain ⟨a, b, c, e⟩ := (mem_pairLattice _).1 h
    have e0 := congrFun e 0
    simp only [pairGeometry, Pi.sub_apply, Matrix.cons_val_zero] at e0
    have e1 : (s : Int) - t = 2 * a := by exact_mod_cast e0
    have hs' : s < 2 := hs
    have ht' : t < 2 := ht
    omega
  translation := by
    intro σ hσ
    have key : ∀ n : Nat, (∀ s < 2, (s + n) % 2 < 2) ∧ ∃ t : Fin 3 → ℝ, ∀ s < 2,
        pairGeometry.pos ((s + n) % 2) - pairGeometry.pos s - t ∈ pairGeometry.lattice := by
      intro n
      refine ⟨fun s _ => Nat.mod_lt _ (by norm_num), ![(n : ℝ), 0, 0], fun s _ => ?_⟩
      refine (mem_pairLattice _).2 ⟨-((s + n) / 2 : Nat), 0, 0, ?_⟩
      have h : ((s + n) % 2 : Nat) = (s : ℝ) + n - 2 * ((s + n) / 2 : Nat) := by
        have := Nat.div_add_mod (s + n) 2
        have h2 : ((2 * ((s + n) / 2) + (s + n) % 2 : Nat) : ℝ) = ((s + n : Nat) : ℝ) := by rw [this]
        push_cast at h2 ⊢
        linarith
      funext d
      fin_cases d
      · simp only [pairGeometry, Pi.sub_apply, Fin.zero_eta, Matrix.cons_val_zero]
        rw [h, Int.cast_neg, Int.cast_natCast]
        ring
      · simp [pairGeometry]
      · simp [pairGeometry]
    have h0 : ∃ n : Nat, ∀ s < 2, σ s = (s + n) % 2 := by
      simp only [pairPerms, List.mem_cons, List.not_mem_nil, or_false] at hσ
      rcases hσ with rfl | rfl
      · exact ⟨0, fun s hs => by simp only [Nat.add_zero]; omega⟩
      · exact ⟨1, fun s _ => rfl⟩
    obtain ⟨n, hn⟩ := h0
    obtain ⟨k1, t, k2⟩ := key n
    refine ⟨fun s hs => ⟨?_, rfl⟩, t, fun s hs => ?_⟩
    · rw [hn s hs]
      exact k1 s hs
    · rw [hn s hs]
      exact k2 s hs
  unique := by
    intro s hs
    have : ∀ s < 2, pairPerms.countP (fun σ => decide ((σ s : Int) = 0)) = 1 := by decide +kernel
    exact this s hs

theorem pair_joins (s : Nat) (v : Fin 3 → ℝ) :
    pairGeometry.Joins 0 s v ↔ ∃ a b c : Int, v = ![((s + 2 * a : Int) : ℝ), b, c] := by
  unfold Geometry.Joins
  rw [mem_pairLattice]
  constructor
  · rintro ⟨a, b, c, e⟩
    refine ⟨a, b, c, ?_⟩
    funext d
    have e0 := congrFun e d
    fin_cases d <;> simp [pairGeometry] at e0 ⊢ <;> linarith
  · rintro ⟨a, b, c, rfl⟩
    refine ⟨a, b, c, ?_⟩
    funext d
    fin_cases d <;> simp [pairGeometry]

theorem pair_length (a b c : Int) :
    pairGeometry.length ![(a : ℝ), b, c] = Real.sqrt ((a * a + b * b + c * c : Int) : ℝ) :=
  ring_length a b c

theorem pair_listsShortest : ListsShortest pair.atoms pairGeometry (1 / 4) where
  all := by
    intro i hi s hs
    have hi' : i < 1 := hi
    obtain rfl : i = 0 := by omega
    have hs' : s < 2 := hs
    have hcase : s = 0 ∨ s = 1 := by omega
    have hvec : ∀ k : Int, pair.atoms.svecs k =
        ![((if k = 2 then -1 else k : Int) : ℝ), (0 : Int), (0 : Int)] := by
      intro k
      funext d
      fin_cases d <;> simp [pair]
    have hsq : ∀ n : Int, 1 ≤ n → 1 ≤ Real.sqrt (n : ℝ) := by
      intro n hn
      rw [Real.one_le_sqrt]
      exact_mod_cast hn
    refine ⟨![((s : Int) : ℝ), (0 : Int), (0 : Int)], (pair_joins s _).2 ⟨0, 0, 0, by simp⟩, ?_, ?_⟩
    · intro u hu
      obtain ⟨a, b, c, rfl⟩ := (pair_joins s u).1 hu
      rw [pair_length, pair_length]
      refine Real.sqrt_le_sqrt ?_
      have hb := mul_self_nonneg b
      have hc := mul_self_nonneg c
      have : ((s : Int) * s + 0 * 0 + 0 * 0) ≤ (s + 2 * a) * (s + 2 * a) + b * b + c * c := by
        rcases hcase with rfl | rfl
        · have := mul_self_nonneg a
          push_cast
          nlinarith
        · have : 0 ≤ a ∨ a ≤ -1 := by omega
          push_cast
          rcases this with h | h <;> nlinarith
      exact_mod_cast this
    · intro v
      rcases hcase with rfl | rfl
      · constructor
        · rintro ⟨x, hx, rfl⟩
          have hx' : x < 1 := hx
          obtain rfl : x = 0 := by omega
          have e : pair.atoms.svecs ((pair.atoms.multiplicity (((0 : Nat) : Int) *
              (pair.atoms.numPatom : Int) + ((0 : Nat) : Int))).2 + ((0 : Nat) : Int)) =
              ![(((0 : Nat) : Int) : ℝ), (0 : Int), (0 : Int)] := by
            rw [hvec]
            rfl
          rw [e]
          exact ⟨(pair_joins 0 _).2 ⟨0, 0, 0, by simp⟩, by linarith⟩
        · rintro ⟨hj, hl⟩
          obtain ⟨a, b, c, rfl⟩ := (pair_joins 0 v).1 hj
          refine ⟨0, Nat.one_pos, ?_⟩
          have e : pair.atoms.svecs ((pair.atoms.multiplicity (((0 : Nat) : Int) *
              (pair.atoms.numPatom : Int) + ((0 : Nat) : Int))).2 + ((0 : Nat) : Int)) =
              ![(((0 : Nat) : Int) : ℝ), (0 : Int), (0 : Int)] := by
            rw [hvec]
            rfl
          rw [e]
          rw [pair_length, pair_length] at hl
          by_contra hne
          have hpos : 1 ≤ (((0 : Nat) : Int) + 2 * a) * (((0 : Nat) : Int) + 2 * a) + b * b + c * c := by
            by_contra hlt
            have h1 := mul_self_nonneg a
            have h2 := mul_self_nonneg b
            have h3 := mul_self_nonneg c
            push_cast at hlt
            have ha : a = 0 := mul_self_eq_zero.1 (by nlinarith)
            have hb : b = 0 := mul_self_eq_zero.1 (by nlinarith)
            have hc : c = 0 := mul_self_eq_zero.1 (by nlinarith)
            subst ha hb hc
            exact hne (by simp)
          have := hsq _ hpos
          have z : Real.sqrt (((((0 : Nat) : Int) * ((0 : Nat) : Int) + 0 * 0 + 0 * 0 : Int)) : ℝ) = 0 := by
            simp
          rw [z] at hl
          exact absurd (lt_of_le_of_lt this hl) (by norm_num)
      · have e0 : pair.atoms.svecs ((pair.atoms.multiplicity (((1 : Nat) : Int) *
            (pair.atoms.numPatom : Int) + ((0 : Nat) : Int))).2 + ((0 : Nat) : Int)) =
            ![((1 : Int) : ℝ), (0 : Int), (0 : Int)] := by
          rw [hvec]
          rfl
        have e1 : pair.atoms.svecs ((pair.atoms.multiplicity (((1 : Nat) : Int) *
            (pair.atoms.numPatom : Int) + ((0 : Nat) : Int))).2 + ((1 : Nat) : Int)) =
            ![((-1 : Int) : ℝ), (0 : Int), (0 : Int)] := by
          rw [hvec]
          rfl
        have one : ∀ n : Int, n = 1 ∨ n = -1 →
            Real.sqrt ((n * n + 0 * 0 + 0 * 0 : Int) : ℝ) = 1 := by
          rintro n (rfl | rfl) <;> simp
        constructor
        · rintro ⟨x, hx, rfl⟩
          have hx' : x < 2 := hx
          have : x = 0 ∨ x = 1 := by omega
          rcases this with rfl | rfl
          · rw [e0]
            exact ⟨(pair_joins 1 _).2 ⟨0, 0, 0, by simp⟩, by
              rw [pair_length, pair_length, one 1 (Or.inl rfl), one ((1 : Nat) : Int) (Or.inl rfl)]; norm_num⟩
          · rw [e1]
            exact ⟨(pair_joins 1 _).2 ⟨-1, 0, 0, by norm_num⟩, by
              rw [pair_length, pair_length, one ((1 : Nat) : Int) (Or.inl rfl), one (-1) (Or.inr rfl)]; norm_num⟩
        · rintro ⟨hj, hl⟩
          obtain ⟨a, b, c, rfl⟩ := (pair_joins 1 v).1 hj
          rw [pair_length, pair_length, one ((1 : Nat) : Int) (Or.inl rfl)] at hl
          have hlt : (((1 : Nat) : Int) + 2 * a) * (((1 : Nat) : Int) + 2 * a) + b * b + c * c < 2 := by
            by_contra hge
            push Not at hge
            have h1 : (5 / 4 : ℝ) ≤ Real.sqrt (((((1 : Nat) : Int) + 2 * a) *
                (((1 : Nat) : Int) + 2 * a) + b * b + c * c : Int) : ℝ) := by
              apply Real.le_sqrt_of_sq_le
              have : (2 : ℝ) ≤ (((((1 : Nat) : Int) + 2 * a) *
                (((1 : Nat) : Int) + 2 * a) + b * b + c * c : Int) : ℝ) := by exact_mod_cast hge
              refine le_trans ?_ this
              norm_num
            linarith
          have h2 := mul_self_nonneg b
          have h3 := mul_self_nonneg c
          push_cast at hlt
          have ha : a = 0 ∨ a = -1 := by
            have : a < 1 := by nlinarith
            have : -2 < a := by nlinarith
            omega
          have hbc : b * b + c * c < 1 := by
            rcases ha with rfl | rfl <;> omega
          have hb : b = 0 := mul_self_eq_zero.1 (by omega)
          have hc : c = 0 := mul_self_eq_zero.1 (by omega)
          subst hb hc
          rcases ha with rfl | rfl
          · refine ⟨0, by show 0 < 2; norm_num, e0.trans ?_⟩
            simp
          · refine ⟨1, by show 1 < 2; norm_num, e1.trans ?_⟩
            norm_num
  once := by
    intro i hi s hs x hx y hy h
    have hi' : i < 1 := hi
    obtain rfl : i = 0 := by omega
    have hs' : s < 2 := hs
    have hcase : s = 0 ∨ s = 1 := by omega
    rcases hcase with rfl | rfl
    · have hx' : x < 1 := hx
      have hy' : y < 1 := hy
      omega
    · have hx' : x < 2 := hx
      have hy' : y < 2 := hy
      have e : ∀ n : Nat, n < 2 → pair.atoms.svecs ((pair.atoms.multiplicity (((1 : Nat) : Int) *
            (pair.atoms.numPatom : Int) + ((0 : Nat) : Int))).2 + (n : Int)) 0 =
            if n = 0 then 1 else -1 := by
        intro n hn
        have : n = 0 ∨ n = 1 := by omega
        rcases this with rfl | rfl
        · show (((if (1 : Int) + ((0 : Nat) : Int) = 2 then -1 else (1 : Int) + ((0 : Nat) : Int) : Int)) : ℝ) = _
          simp
        · show (((if (1 : Int) + ((1 : Nat) : Int) = 2 then -1 else (1 : Int) + ((1 : Nat) : Int) : Int)) : ℝ) = _
          simp
      have h0 := congrFun h 0
      rw [e x hx', e y hy'] at h0
      by_contra hne
      have : (x = 0 ∧ y = 1) ∨ (x = 1 ∧ y = 0) := by omega
      rcases this with ⟨rfl, rfl⟩ | ⟨rfl, rfl⟩ <;> norm_num at h0

theorem pair_symmetric :
    HoldsSymmetricFc3 pair pairPerms (fun r s t x y z => (pairFc3 r s t x y z : ℝ)) where
  holds := by
    intro i hi s hs t ht x hx y hy z hz
    have hi' : i < 1 := hi
    obtain rfl : i = 0 := by omega
    have h : ∀ s < 2, ∀ t < 2, ∀ x < 3, ∀ y < 3, ∀ z < 3,
        pairFc3 0 (fc3At 2 0 s t x y z / 54).toNat (fc3At 2 0 s t x y z / 27 % 2).toNat
          (fc3At 2 0 s t x y z / 9 % 3).toNat (fc3At 2 0 s t x y z / 3 % 3).toNat
          (fc3At 2 0 s t x y z % 3).toNat = pairFc3 0 s t x y z := by decide +kernel
    exact congrArg (Int.cast : Int → ℝ) (h s hs t ht x hx y hy z hz)
  first := by
    intro r _ s _ t _ x _ y _ z _
    have : pairFc3 s r t y x z = pairFc3 r s t x y z := by
      unfold pairFc3
      split_ifs <;> first | rfl | omega
    exact congrArg (Int.cast : Int → ℝ) this
  last := by
    intro r _ s _ t _ x _ y _ z _
    have : pairFc3 r t s x z y = pairFc3 r s t x y z := by
      unfold pairFc3
      split_ifs <;> first | rfl | omega
    exact congrArg (Int.cast : Int → ℝ) this
  translation := by
    intro σ hσ r hr s hs t ht x hx y hy z hz
    have h : ∀ σ ∈ pairPerms, ∀ r < 2, ∀ s < 2, ∀ t < 2, ∀ x < 3, ∀ y < 3, ∀ z < 3,
        pairFc3 (σ r) (σ s) (σ t) x y z = pairFc3 r s t x y z := by decide +kernel
    exact congrArg (Int.cast : Int → ℝ) (h σ hσ r hr s hs t ht x hx y hy z hz)

/-- Grid point `p` of a row is at address `p`. -/
def rowAddress (p : Int) : V3 := ⟨p, 0, 0⟩

/-- Unit eigenvectors at each grid point. -/
noncomputable def unitEig (p : Int) : Cplx ℝ := if p % 9 / 3 = p % 3 then 1 else 0

/-- The mean phase of the second atom, at wave vector `n / 4`. -/
theorem pair_phase (t : Fin 3 → Int) (m : Fin 3) {c : Cplx ℝ}
    (h : (realPhase ((t m : ℝ) / 4) + realPhase (-((t m : ℝ) / 4))).scale (1 / 2) = c) (s : Nat) :
    phaseTable realPhase (notAveraged pair).atoms
      (fun m => gridQ (rowAddress (t m)) ⟨4, 1, 1⟩ ⟨1, 0, 0, 0, 1, 0, 0, 0, 1⟩) m 0 s =
      if s = 0 then 1 else c := by
  have e : phaseTable realPhase (notAveraged pair).atoms
      (fun m => gridQ (rowAddress (t m)) ⟨4, 1, 1⟩ ⟨1, 0, 0, 0, 1, 0, 0, 0, 1⟩) m 0 s =
      meanPhase realPhase (gridQ (rowAddress (t m)) ⟨4, 1, 1⟩ ⟨1, 0, 0, 0, 1, 0, 0, 0, 1⟩)
        pair.atoms.svecs (pair.atoms.multiplicity (s * pair.atoms.numPatom + 0)).1
        (pair.atoms.multiplicity (s * pair.atoms.numPatom + 0)).2 :=
    phaseFactor_eq ..
  have hdot : ∀ k : Int, dot (gridQ (rowAddress (t m)) ⟨4, 1, 1⟩ ⟨1, 0, 0, 0, 1, 0, 0, 0, 1⟩)
      (pair.atoms.svecs k) = (t m : ℝ) / 4 * ((if k = 2 then -1 else k : Int) : ℝ) := by
    intro k
    simp [dot, gridQ, rowAddress, Fin.sum_univ_three, V3.e, M3.e, pair]
  have hm : pair.atoms.multiplicity ((s : Int) * (pair.atoms.numPatom : Int) + 0) =
      if s = 0 then (1, 0) else (2, 1) := by
    show (if (s : Int) * ((1 : Nat) : Int) + 0 = 0 then ((1, 0) : Nat × Int) else (2, 1)) = _
    simp
  rw [e, hm]
  unfold meanPhase
  simp only [hdot]
  by_cases hs : s = 0
  · simp only [if_pos hs]
    rw [Finset.sum_range_one]
    simp [realPhase_isPhase.zero]
    ext <;> simp [Cplx.scale]
  · simp only [if_neg hs]
    rw [Finset.sum_range_succ, Finset.sum_range_one, ← h]
    norm_num

theorem pair_element (t : Fin 3 → Int) {c1 c2 : ℝ}
    (h1 : (realPhase ((t 1 : ℝ) / 4) + realPhase (-((t 1 : ℝ) / 4))).scale (1 / 2) = ⟨c1, 0⟩)
    (h2 : (realPhase ((t 2 : ℝ) / 4) + realPhase (-((t 2 : ℝ) / 4))).scale (1 / 2) = ⟨c2, 0⟩) :
    tripletFc3 realPhase (notAveraged pair) t rowAddress ⟨4, 1, 1⟩ ⟨1, 0, 0, 0, 1, 0, 0, 0, 1⟩
      0 0 0 = ⟨2 + c1 + c2 + c1 * c2, 0⟩ := by
  unfold tripletFc3
  have h3 : 0 < (notAveraged pair).numBand := by show 0 < 3; norm_num
  rw [r2r_at3 (nb := (notAveraged pair).numBand) realPhase (notAveraged pair).atoms _ _ _ rfl h3 h3 h3]
  unfold r2rEntry
  rw [if_neg (show ¬(notAveraged pair).atoms.makeR0Average = true from Bool.false_ne_true),
    r2rElement_eq]
  have hpre : prePhaseFactor realPhase (notAveraged pair).atoms
      (fun m => gridQ (rowAddress (t m)) ⟨4, 1, 1⟩ ⟨1, 0, 0, 0, 1, 0, 0, 0, 1⟩) (0 / 3) = 1 := by
    unfold prePhaseFactor
    have : (notAveraged pair).atoms.svecs ((notAveraged pair).atoms.multiplicity
        ((notAveraged pair).atoms.p2s (0 / 3) * (notAveraged pair).atoms.numPatom)).2 =
        fun _ => 0 := by
      funext d
      fin_cases d <;> simp [notAveraged, pair]
    simp only
    rw [this]
    simp [dot3, realPhase_isPhase.zero]
  rw [hpre]
  have hp1 := fun s => pair_phase t 1 h1 s
  have hp2 := fun s => pair_phase t 2 h2 s
  have hn : (notAveraged pair).atoms.numSatom = 2 := rfl
  simp only [Nat.zero_div, hp1, hp2, hn]
  simp only [Finset.sum_range_succ, Finset.sum_range_zero, legFactor]
  ext <;> simp [notAveraged, pair, pairFc3, Cplx.scale] <;> ring

theorem pair_strength (t : Fin 3 → Int) {r : ℝ}
    (h : tripletFc3 realPhase (notAveraged pair) t rowAddress ⟨4, 1, 1⟩
      ⟨1, 0, 0, 0, 1, 0, 0, 0, 1⟩ 0 0 0 = ⟨r, 0⟩) :
    tripletStrength Real.sqrt realPhase (notAveraged pair) (fun _ => 1) unitEig t rowAddress
      ⟨4, 1, 1⟩ ⟨1, 0, 0, 0, 1, 0, 0, 0, 1⟩ (fun _ => 0) = r * r := by
  unfold tripletStrength
  rw [modeStrength_eq, if_pos (fun _ => by show (0 : ℝ) < 1; norm_num)]
  have he : ∀ (n : Int) (a : Nat), a < 3 →
      unitEig (n * (notAveraged pair).numBand * (notAveraged pair).numBand +
        (at2 (notAveraged pair).numBand a 0 : Nat)) = if a = 0 then 1 else 0 := by
    intro n a ha
    have e : n * (notAveraged pair).numBand * (notAveraged pair).numBand +
        ((at2 (notAveraged pair).numBand a 0 : Nat) : Int) = 9 * n + 3 * a := by
      show n * ((3 : Nat) : Int) * ((3 : Nat) : Int) + ((at2 3 a 0 : Nat) : Int) = _
      unfold at2
      push_cast
      ring
    rw [e]
    unfold unitEig
    by_cases h0 : a = 0
    · rw [if_pos h0, if_pos (by omega)]
    · rw [if_neg h0, if_neg (by omega)]
  have amp : amplitude (notAveraged pair).numBand
      (fun a => Real.sqrt ((notAveraged pair).masses (a / 3)))
      (tripletFc3 realPhase (notAveraged pair) t rowAddress ⟨4, 1, 1⟩ ⟨1, 0, 0, 0, 1, 0, 0, 0, 1⟩)
      (fun a => unitEig (t 0 * (notAveraged pair).numBand * (notAveraged pair).numBand +
        (at2 (notAveraged pair).numBand a 0 : Nat)))
      (fun a => unitEig (t 1 * (notAveraged pair).numBand * (notAveraged pair).numBand +
        (at2 (notAveraged pair).numBand a 0 : Nat)))
      (fun a => unitEig (t 2 * (notAveraged pair).numBand * (notAveraged pair).numBand +
        (at2 (notAveraged pair).numBand a 0 : Nat))) = ⟨r, 0⟩ := by
    refine (amplitude_congr (s := fun a => Real.sqrt ((notAveraged pair).masses (a / 3)))
      (fun _ _ _ _ _ _ => rfl) (he (t 0)) (he (t 1)) (he (t 2))).trans ?_
    unfold amplitude
    have h3 : (notAveraged pair).numBand = 3 := rfl
    have hm : ∀ a, (notAveraged pair).masses a = 1 := fun _ => rfl
    simp only [hm, Finset.sum_range_succ, Finset.sum_range_zero]
    ext <;> simp [Cplx.scale, h]
  refine (congrArg (fun z : Cplx ℝ => z.normSq / (1 * 1 * 1)) amp).trans ?_
  simp [Cplx.normSq]

/-- C167: without the average, at other wave vectors, the interaction strength depends on which of the
three phonons is taken for the first, although positions, shortest vectors and force constants are
right in every respect. -/
theorem C167_depends :
    (IsSupercell pair.atoms (fun _ => 0) pairPerms pairGeometry ∧
      ListsShortest pair.atoms pairGeometry (1 / 4) ∧
      HoldsSymmetricFc3 pair pairPerms (fun r s t x y z => (pairFc3 r s t x y z : ℝ)) ∧
      (∃ z : Fin 3 → Int, ∀ d : Fin 3,
        (gridQ (rowAddress 2) ⟨4, 1, 1⟩ ⟨1, 0, 0, 0, 1, 0, 0, 0, 1⟩ d +
          gridQ (rowAddress 1) ⟨4, 1, 1⟩ ⟨1, 0, 0, 0, 1, 0, 0, 0, 1⟩ d +
          gridQ (rowAddress 1) ⟨4, 1, 1⟩ ⟨1, 0, 0, 0, 1, 0, 0, 0, 1⟩ d : ℝ) = z d)) ∧
    tripletStrength Real.sqrt realPhase (notAveraged pair) (fun _ => 1) unitEig ![2, 1, 1] rowAddress
      ⟨4, 1, 1⟩ ⟨1, 0, 0, 0, 1, 0, 0, 0, 1⟩ (fun _ => 0) = 4 ∧
    tripletStrength Real.sqrt realPhase (notAveraged pair) (fun _ => 1) unitEig
      (![2, 1, 1] ∘ (Equiv.swap 0 1 : Equiv.Perm (Fin 3))) rowAddress
      ⟨4, 1, 1⟩ ⟨1, 0, 0, 0, 1, 0, 0, 0, 1⟩ (fun _ => 0) = 1 := by
  have q : (realPhase (((1 : Int) : ℝ) / 4) + realPhase (-(((1 : Int) : ℝ) / 4))).scale (1 / 2) =
      ⟨0, 0⟩ := by
    have e : 2 * Real.pi * (1 / 4) = Real.pi / 2 := by ring
    ext <;> simp [realPhase, Cplx.scale]
    have e' : 2 * Real.pi * 4⁻¹ = Real.pi / 2 := by ring
    rw [e', Real.cos_pi_div_two]
  have h : (realPhase (((2 : Int) : ℝ) / 4) + realPhase (-(((2 : Int) : ℝ) / 4))).scale (1 / 2) =
      ⟨-1, 0⟩ := by
    have e : 2 * Real.pi * (2 / 4) = Real.pi := by ring
    ext <;> simp [realPhase, Cplx.scale, e]
    norm_num
  have eσ : ((![2, 1, 1] : Fin 3 → Int) ∘ (Equiv.swap 0 1 : Equiv.Perm (Fin 3))) = ![1, 2, 1] := by
    funext m
    fin_cases m <;> rfl
  refine ⟨⟨pair_isSupercell, pair_listsShortest, pair_symmetric, ![1, 0, 0], fun d => ?_⟩, ?_, ?_⟩
  · fin_cases d <;> simp [gridQ, rowAddress, Fin.sum_univ_three, V3.e, M3.e]
    norm_num
  · rw [pair_strength _ (pair_element ![2, 1, 1] q q)]
    norm_num
  · rw [eσ, pair_strength _ (pair_element ![1, 2, 1] h q)]
    norm_num

/-- The hypotheses of `C167_symmetric_partial` are met by the pair and the wave vectors 0, 1/2, 1/2. -/
example (A : Int → Bool)
    (hA : getAllShortest Real.sqrt pair.atoms (fun _ => 0) pairPerms ringLattice (1 / 4) = some A)
    (f : Int → ℝ) (e : Int → Cplx ℝ) (band : Fin 3 → Nat) (σ : Equiv.Perm (Fin 3)) :
    tripletStrength Real.sqrt realPhase (notAveraged pair) f e (![0, 1, 1] ∘ σ) rowAddress ⟨2, 1, 1⟩
      ⟨1, 0, 0, 0, 1, 0, 0, 0, 1⟩ (band ∘ σ) =
    tripletStrength Real.sqrt realPhase (notAveraged pair) f e ![0, 1, 1] rowAddress ⟨2, 1, 1⟩
      ⟨1, 0, 0, 0, 1, 0, 0, 0, 1⟩ band := by
  have com : ∀ n : Int, pairGeometry.Commensurate
      (gridQ (rowAddress n) ⟨2, 1, 1⟩ ⟨1, 0, 0, 0, 1, 0, 0, 0, 1⟩) := by
    rintro n _ ⟨a, b, c, rfl⟩
    refine ⟨n * a, ?_⟩
    simp [dot, gridQ, rowAddress, Fin.sum_univ_three, V3.e, M3.e]
    ring
  refine (C167_symmetric_partial Real.sqrt realPhase_isPhase pair rfl ringLattice rfl (by norm_num)
    pair_isSupercell pair_listsShortest pair_symmetric hA f e _ _ _ _ ⟨![1, 0, 0], fun d => ?_⟩
    (fun m => ?_) band σ).1
  · fin_cases d <;> simp [gridQ, rowAddress, Fin.sum_univ_three, V3.e, M3.e]
    norm_num
  · exact com _

end Examples

end Props
end Phono3py
