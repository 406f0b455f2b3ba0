/- C34, C71-C74: fc3 from displacements, symmetry and cutoffs. -/
import Verif.Lemmas.Fc3Solve
import Verif.Props.Fc3
import Mathlib.Algebra.Order.BigOperators.Group.Finset

namespace Phono3py.Props

open Phono3py Spec

variable {K : Type _} [Field K]
set_option linter.unusedSectionVars false

/-! ## C34: distribution to equivalent first atoms -/

/-- C34: the row of `target` becomes the row of `source` with atoms permuted and all three
directions rotated, `∑ r_la r_mb r_nc Φ_abc(source, map j, map k)`. -/
theorem C34_value (n target source : Nat) (mapping : Nat → Nat) (r : Nat → Nat → K)
    (A : Int → K) (hmap : ∀ i < n, mapping i < n) (hne : target ≠ source) (j k l m q : Nat)
    (hj : j < n) (hk : k < n) (hl : l < 3) (hm : m < 3) (hq : q < 3) :
    distributeRow n target source mapping r A
        (fc3Pos n ![(target, l), (j, m), (k, q)] : Nat) =
      ∑ a ∈ Finset.range 3, ∑ b ∈ Finset.range 3, ∑ c ∈ Finset.range 3,
        r l a * r m b * r q c * A (fc3Pos n ![(source, a), (mapping j, b), (mapping k, c)] : Nat) :=
  distributeRow_value hmap hne r A
    ⟨hj, hk, fun s => by fin_cases s <;> assumption⟩ rfl

/-- C34: the other rows are not touched. -/
theorem C34_other_rows (n target source : Nat) (mapping : Nat → Nat) (r : Nat → Nat → K)
    (A : Int → K) (row j k l m q : Nat) (hrow : row ≠ target)
    (hj : j < n) (hk : k < n) (hl : l < 3) (hm : m < 3) (hq : q < 3) :
    distributeRow n target source mapping r A (fc3Pos n ![(row, l), (j, m), (k, q)] : Nat) =
      A (fc3Pos n ![(row, l), (j, m), (k, q)] : Nat) := by
  apply distributeRow_other
  intro y hy hy0 he
  have := fc3Pos_inj (x := ![(row, l), (j, m), (k, q)])
    ⟨hj, hk, fun s => by fin_cases s <;> assumption⟩ hy (Int.ofNat.inj he)
  exact hrow (by rw [← hy0, ← this]; rfl)

/-- C34: the operation used for a target atom brings it to one of the given first atoms, and is a
pure translation whenever a pure translation brings it to that atom. -/
theorem C34_choice (ops : List (SymOp K)) (target : Nat) (firsts : List Nat) (d : Nat)
    (o : SymOp K) (h : findSource ops target firsts = some (d, o)) :
    d ∈ firsts ∧ o ∈ ops ∧ o.perm target = d ∧
      ((∃ o' ∈ ops, o'.perm target = d ∧ o'.pure = true) → o.pure = true) := by
  obtain ⟨h1, h2⟩ := findSource_some h
  obtain ⟨h3, h4, h5⟩ := chooseOp_some h2
  refine ⟨h1, h3, h4, ?_⟩
  rintro ⟨o', ho', he, hp⟩
  by_contra hc
  rw [h5 (by simpa using hc) o' ho' he] at hp
  exact absurd hp (by simp)

/-- C34: the distribution succeeds exactly when every target atom is brought to one of the first
atoms by some operation. -/
theorem C34_succeeds_iff (n : Nat) (s2compact : Nat → Nat) (ops : List (SymOp K))
    (firsts targets : List Nat) (A : Int → K) :
    (distributeFc3 n s2compact ops firsts targets A).isSome ↔
      ∀ t ∈ targets, ∃ o ∈ ops, o.perm t ∈ firsts := by
  rw [distributeFc3_isSome]
  refine forall₂_congr fun t _ => ⟨?_, ?_⟩
  · rintro ⟨d, hd, o, ho, rfl⟩; exact ⟨o, ho, hd⟩
  · rintro ⟨o, ho, hd⟩; exact ⟨_, hd, o, ho, rfl⟩

/-- C34: from rows of invariant force constants for the first atoms, the rows of all target atoms
are obtained exactly, and the rows of the first atoms are kept. -/
theorem C34_restores (n : Nat) (s2compact : Nat → Nat) (ops : List (SymOp K))
    (firsts targets : List Nat) (A A' : Int → K) (f : Legs → K)
    (hlt : ∀ o ∈ ops, ∀ i < n, o.perm i < n) (horth : ∀ o ∈ ops, Orthogonal o.rotCart)
    (hinv : ∀ o ∈ ops, InvariantUnder n o.perm o.rotCart f)
    (hdisj : ∀ t ∈ targets, t ∉ firsts)
    (hinj : ∀ t ∈ targets, ∀ i, i ∈ firsts ∨ i ∈ targets → s2compact i = s2compact t → i = t)
    (hrows : ∀ i ∈ firsts, HoldsRow n A (s2compact i) i f)
    (h : distributeFc3 n s2compact ops firsts targets A = some A') :
    ∀ i, i ∈ firsts ∨ i ∈ targets → HoldsRow n A' (s2compact i) i f :=
  (distributeFc3_holds (fun o ho => ⟨hlt o ho, horth o ho, hinv o ho⟩) targets (· ∈ firsts) A A'
    (fun _ h => h) hrows hdisj hinj h).1

/-- C34: `get_fc3` expands the rows of the displaced atoms to the full array. -/
theorem C34_full (n : Nat) (ops : List (SymOp K)) (firsts p2s : List Nat) (A A' : Int → K)
    (f : Legs → K) (hlt : ∀ o ∈ ops, ∀ i < n, o.perm i < n)
    (horth : ∀ o ∈ ops, Orthogonal o.rotCart)
    (hinv : ∀ o ∈ ops, InvariantUnder n o.perm o.rotCart f)
    (hrows : ∀ i ∈ firsts, HoldsRow n A i i f)
    (h : expandFc3Full n ops firsts p2s A = some A') (x : Legs) (hx : Legs.Valid n x) :
    A' (fc3Pos n x : Nat) = f x := by
  have hops : ∀ o ∈ ops, o.Ok n f := fun o ho => ⟨hlt o ho, horth o ho, hinv o ho⟩
  unfold expandFc3Full at h
  split at h
  case isFalse => exact absurd h (by simp)
  case isTrue hsub =>
    simp only at h
    split at h
    · exact absurd h (by simp)
    · next A1 hA1 =>
      have k1 := (distributeFc3_holds hops _ (· ∈ firsts) A A1 (fun _ h => h) hrows
        (by intro t ht; simpa using (List.mem_filter.mp ht).2) (fun _ _ _ _ h => h) hA1).1
      have hp2s : ∀ i, i ∈ firsts ∨ i ∈ p2s → HoldsRow n A1 i i f := by
        intro i hi
        apply k1
        by_cases hf : i ∈ firsts
        · exact Or.inl hf
        · exact Or.inr (List.mem_filter.mpr ⟨hi.resolve_left hf, by simpa using hf⟩)
      have k2 := (distributeFc3_holds hops _
        (fun i => i ∈ (List.range n).filter fun i => firsts.contains i || p2s.contains i)
        A1 A' (fun _ h => h)
        (fun i hi => hp2s i (by
          have := (List.mem_filter.mp hi).2
          simpa using this))
        (by
          intro t ht hc
          have := (List.mem_filter.mp ht).2
          rw [List.contains_eq_mem, decide_eq_true hc] at this
          exact absurd this (by simp)) (fun _ _ _ _ h => h) h).1
      have hx0 := (hx 0).1
      have := k2 (x 0).1 (by
        by_cases hm : (x 0).1 ∈ (List.range n).filter fun i => firsts.contains i || p2s.contains i
        · exact Or.inl hm
        · exact Or.inr (List.mem_filter.mpr ⟨List.mem_range.mpr hx0, by
            rw [Bool.not_eq_true']
            rw [List.contains_eq_mem]
            exact decide_eq_false hm⟩)) x hx rfl
      have e : setAtom x 0 (x 0).1 = x := by
        rw [setAtom_zero]; funext s; fin_cases s <;> rfl
      have this' : A' (fc3Pos n (setAtom x 0 (x 0).1) : Nat) = f x := this
      rw [e] at this'
      exact this'

/-- C34: `get_fc3` expands the rows of the displaced atoms to the compact array, whose row
`p2p[s2p[i]]` belongs to the atom `i` of the primitive cell. -/
theorem C34_compact (n : Nat) (s2p p2p : Nat → Nat) (ops : List (SymOp K))
    (firsts p2s : List Nat) (A A' : Int → K)
    (f : Legs → K) (hlt : ∀ o ∈ ops, ∀ i < n, o.perm i < n)
    (horth : ∀ o ∈ ops, Orthogonal o.rotCart)
    (hinv : ∀ o ∈ ops, InvariantUnder n o.perm o.rotCart f)
    (hinj : ∀ i ∈ p2s, ∀ j ∈ p2s, p2p (s2p i) = p2p (s2p j) → i = j)
    (hrows : ∀ i ∈ firsts, HoldsRow n A (p2p (s2p i)) i f)
    (h : expandFc3Compact n s2p p2p ops firsts p2s A = some A') (x : Legs)
    (hx : Legs.Valid n x) (h0 : (x 0).1 ∈ p2s) :
    A' (fc3Pos n (setAtom x 0 (p2p (s2p (x 0).1))) : Nat) = f x := by
  have hops : ∀ o ∈ ops, o.Ok n f := fun o ho => ⟨hlt o ho, horth o ho, hinv o ho⟩
  unfold expandFc3Compact at h
  split at h
  case isFalse => exact absurd h (by simp)
  case isTrue hsub =>
    have hsub' : ∀ i ∈ firsts, i ∈ p2s := by simpa using hsub
    have k := (distributeFc3_holds hops _ (· ∈ firsts) A A' (fun _ h => h) hrows
      (by intro t ht; simpa using (List.mem_filter.mp ht).2)
      (fun t ht i hi he => hinj i (hi.elim (hsub' i) fun h => (List.mem_filter.mp h).1) t
        (List.mem_filter.mp ht).1 he) h).1
    refine k (x 0).1 ?_ x hx rfl
    by_cases hf : (x 0).1 ∈ firsts
    · exact Or.inl hf
    · exact Or.inr (List.mem_filter.mpr ⟨h0, by simpa using hf⟩)

/-! An example: two atoms exchanged by an inversion. -/

/-- Force constants that change sign under the exchange of the atoms. -/
def exampleOdd (x : Legs) : ℚ :=
  (if (x 0).1 = 0 then 1 else -1) * ((x 0).2 + 1) * ((x 1).2 + 2) * ((x 2).2 + 3)

/-- Identity and inversion. -/
def exampleOps : List (SymOp ℚ) :=
  [⟨true, id, fun i j => if i = j then 1 else 0⟩,
    ⟨false, fun i => 1 - i, fun i j => if i = j then -1 else 0⟩]

example : (∀ o ∈ exampleOps, ∀ i < 2, o.perm i < 2) ∧
    (∀ o ∈ exampleOps, Orthogonal o.rotCart) ∧
    ∀ o ∈ exampleOps, InvariantUnder 2 o.perm o.rotCart exampleOdd := by
  refine ⟨?_, ?_, ?_⟩
  · intro o ho
    fin_cases ho <;> intro i hi
    · exact hi
    · show 1 - i < 2; omega
  · intro o ho
    unfold Orthogonal
    fin_cases ho <;> decide +kernel
  · intro o ho x hx
    have key : ∀ o ∈ exampleOps, ∀ i < 2, ∀ j < 2, ∀ k < 2, ∀ a < 3, ∀ b < 3, ∀ c < 3,
        exampleOdd (moveAtoms o.perm ![(i, a), (j, b), (k, c)]) =
          rotateLegs o.rotCart exampleOdd ![(i, a), (j, b), (k, c)] := by
      intro o ho
      fin_cases ho <;> decide +kernel
    have e : x = ![((x 0).1, (x 0).2), ((x 1).1, (x 1).2), ((x 2).1, (x 2).2)] := by
      funext s; fin_cases s <;> rfl
    rw [e]
    exact key o ho _ (hx 0).1 _ (hx 1).1 _ (hx 2).1 _ (hx 0).2 _ (hx 1).2 _ (hx 2).2

example : (expandFc3Full 2 exampleOps [0] [0, 1]
    (fun p => if p < 108 then (p : ℚ) else 0)).isSome = true := by decide +kernel

example : findSource exampleOps 1 [0] ≠ none := by
  rw [ne_eq, findSource_none]
  push Not
  exact ⟨0, by simp, _, List.mem_cons_of_mem _ (List.mem_singleton.mpr rfl), rfl⟩

/-! ## C73: fc3 from displacements -/

/-- C73: from the changes of fc2 induced by displacements of one atom, its row of fc3 is
recovered exactly, whatever the buffer contained. -/
theorem C73_solve (s : SiteData K) (f : Legs → K) (first : Nat) (u : Nat → Nat → K)
    (perm : Nat → Nat → Nat) (h : s.Fits f first u perm) (mem A : Int → K) (i j k l m : Nat)
    (hi : i < s.numAtom) (hj : j < s.numAtom) (hk : k < 3) (hl : l < 3) (hm : m < 3) :
    rotateDeltaFc2 s mem A ((((i * s.numAtom + j) * 3 + k) * 3 + l) * 3 + m : Nat) =
      f ![(first, k), (i, l), (j, m)] := by
  have e : (((i * s.numAtom + j) * 3 + k) * 3 + l) * 3 + m =
      (i * s.numAtom + j) * 27 + k * 9 + l * 3 + m := by ring
  unfold rotateDeltaFc2
  rw [e, rotateDelta_fold s A mem (s.numAtom * s.numAtom) (digits_lt hi hj) hk hl hm]
  have hn : 0 < s.numAtom := by omega
  have e1 : (i * s.numAtom + j) / s.numAtom = i := by
    rw [mul_comm, Nat.mul_add_div hn, Nat.div_eq_of_lt hj, add_zero]
  have e2 : (i * s.numAtom + j) % s.numAtom = j := by
    rw [mul_comm, Nat.mul_add_mod, Nat.mod_eq_of_lt hj]
  rw [e1, e2]
  exact solvedElem_eq h hi hj hk hl hm

theorem least_rows (n : Nat) (site : Nat → SiteData K) (f : Legs → K) (firsts : List Nat)
    (u : Nat → Nat → Nat → K) (perm : Nat → Nat → Nat → Nat) (mem : Nat → Int → K)
    (row : Nat → Nat) (hn : ∀ i ∈ firsts, (site i).numAtom = n)
    (hfit : ∀ i ∈ firsts, (site i).Fits f i (u i) (perm i))
    (hrow : ∀ i ∈ firsts, ∀ j ∈ firsts, row i = row j → i = j) :
    ∀ i ∈ firsts, HoldsRow n (fc3LeastAtoms n row
      (fun i => rotateDeltaFc2 (site i) (mem i) fun _ => 0) firsts) (row i) i f := by
  intro i hi
  refine leastAtoms_holds firsts (fun _ => False) (fun _ => (0 : K)) ?_ (fun _ h => h.elim) ?_ i
    (Or.inr hi)
  · intro j hj x hx h0
    have hnj := hn j hj
    have h := C73_solve (site j) f j (u j) (perm j) (hfit j hj) (mem j) (fun _ => 0)
      (x 1).1 (x 2).1 (x 0).2 (x 1).2 (x 2).2 (by rw [hnj]; exact (hx 1).1)
      (by rw [hnj]; exact (hx 2).1) (hx 0).2 (hx 1).2 (hx 2).2
    rw [hnj] at h
    rw [h]
    congr 1
    funext s
    fin_cases s
    · exact Prod.ext h0.symm rfl
    · rfl
    · rfl
  · intro t ht j hj he
    exact hrow j (hj.resolve_left id) t ht he

/-- C73: `get_fc3` without a cutoff recovers force constants exactly: from the changes of fc2
induced by the displaced atoms and the symmetry operations, every element of the full array. -/
theorem C73_get_fc3_full (n : Nat) (ops : List (SymOp K)) (firsts p2s : List Nat)
    (site : Nat → SiteData K) (f : Legs → K) (u : Nat → Nat → Nat → K)
    (perm : Nat → Nat → Nat → Nat) (mem : Nat → Int → K)
    (hn : ∀ i ∈ firsts, (site i).numAtom = n)
    (hfit : ∀ i ∈ firsts, (site i).Fits f i (u i) (perm i))
    (hlt : ∀ o ∈ ops, ∀ i < n, o.perm i < n) (horth : ∀ o ∈ ops, Orthogonal o.rotCart)
    (hinv : ∀ o ∈ ops, InvariantUnder n o.perm o.rotCart f) (A : Int → K)
    (h : expandFc3Full n ops firsts p2s (fc3LeastAtoms n id
      (fun i => rotateDeltaFc2 (site i) (mem i) fun _ => 0) firsts) = some A)
    (x : Legs) (hx : Legs.Valid n x) : A (fc3Pos n x : Nat) = f x :=
  C34_full n ops firsts p2s _ A f hlt horth hinv
    (least_rows n site f firsts u perm mem id hn hfit fun _ _ _ _ h => h) h x hx

/-- C73: the same for the compact array. -/
theorem C73_get_fc3_compact (n : Nat) (s2p p2p : Nat → Nat) (ops : List (SymOp K))
    (firsts p2s : List Nat) (site : Nat → SiteData K) (f : Legs → K) (u : Nat → Nat → Nat → K)
    (perm : Nat → Nat → Nat → Nat) (mem : Nat → Int → K)
    (hn : ∀ i ∈ firsts, (site i).numAtom = n)
    (hfit : ∀ i ∈ firsts, (site i).Fits f i (u i) (perm i))
    (hlt : ∀ o ∈ ops, ∀ i < n, o.perm i < n) (horth : ∀ o ∈ ops, Orthogonal o.rotCart)
    (hinv : ∀ o ∈ ops, InvariantUnder n o.perm o.rotCart f)
    (hinj : ∀ i ∈ p2s, ∀ j ∈ p2s, p2p (s2p i) = p2p (s2p j) → i = j)
    (hsub : ∀ i ∈ firsts, i ∈ p2s) (A : Int → K)
    (h : expandFc3Compact n s2p p2p ops firsts p2s (fc3LeastAtoms n (fun i => p2p (s2p i))
      (fun i => rotateDeltaFc2 (site i) (mem i) fun _ => 0) firsts) = some A)
    (x : Legs) (hx : Legs.Valid n x) (h0 : (x 0).1 ∈ p2s) :
    A (fc3Pos n (setAtom x 0 (p2p (s2p (x 0).1))) : Nat) = f x :=
  C34_compact n s2p p2p ops firsts p2s _ A f hlt horth hinv hinj
    (least_rows n site f firsts u perm mem (fun i => p2p (s2p i)) hn hfit
      fun i hi j hj h => hinj i (hsub i hi) j (hsub j hj) h) h x hx h0

/-! An example: one atom with a threefold axis along the diagonal and one displacement. -/

/-- Force constants of a single atom: one for three equal directions, otherwise zero. -/
def exampleDiagonal (x : Legs) : ℚ := if (x 0).2 = (x 1).2 ∧ (x 1).2 = (x 2).2 then 1 else 0

def exampleSite : SiteData ℚ where
  numAtom := 1
  numSym := 3
  numDisp := 1
  deltaFc2s := fun _ l m => if l = 0 ∧ m = 0 then 1 else 0
  invU := fun p => if p = 0 ∨ p = 4 ∨ p = 8 then 1 else 0
  siteSymCart := fun s i j => if i = (j + s) % 3 then 1 else 0
  rotMapSyms := fun _ => 0

theorem exampleSite_fits : exampleSite.Fits exampleDiagonal 0
    (fun _ a => if a = 0 then 1 else 0) (fun _ i => i) where
  first_lt := by decide +kernel
  delta := by
    intro d hd i hi j hj l hl m hm
    have hd0 : d = 0 := by change d < 1 at hd; omega
    have hi0 : i = 0 := by change i < 1 at hi; omega
    have hj0 : j = 0 := by change j < 1 at hj; omega
    subst hd0 hi0 hj0
    revert l m
    decide +kernel
  fixed := fun _ _ => rfl
  orth := by unfold Orthogonal; decide +kernel
  inv := by
    intro s hs x hx
    have hs3 : s < 3 := hs
    have e : x = ![(0, (x 0).2), (0, (x 1).2), (0, (x 2).2)] := by
      have h0 : (x 0).1 < 1 := (hx 0).1
      have h1 : (x 1).1 < 1 := (hx 1).1
      have h2 : (x 2).1 < 1 := (hx 2).1
      funext r
      fin_cases r
      · exact Prod.ext (by show (x 0).1 = 0; omega) rfl
      · exact Prod.ext (by show (x 1).1 = 0; omega) rfl
      · exact Prod.ext (by show (x 2).1 = 0; omega) rfl
    have key : ∀ s < 3, ∀ a < 3, ∀ b < 3, ∀ c < 3,
        exampleDiagonal (moveAtoms (fun i => i) ![(0, a), (0, b), (0, c)]) =
          rotateLegs (exampleSite.siteSymCart s) exampleDiagonal ![(0, a), (0, b), (0, c)] := by
      decide +kernel
    rw [e]
    exact key s hs3 _ (hx 0).2 _ (hx 1).2 _ (hx 2).2
  map_lt := fun _ _ _ _ => Nat.zero_lt_one
  map_inv := by
    intro s _ i hi
    have : i = 0 := by change i < 1 at hi; omega
    subst this
    rfl
  pinv := by decide +kernel

/-! ## C71: symmetrisation with cutoff pairs -/

section
variable [LinearOrder K] [IsStrictOrderedRing K]

/-- C71: with a cutoff, every element becomes the average of those of its six permutations whose
atoms were computed. -/
theorem C71_value (n : Nat) (done : Nat → Nat → Nat → Nat) (A : Int → K) (x : Legs)
    (hx : Legs.Valid n x) :
    cutoffFc3ForCutoffPairs n done A (fc3Pos n x : Nat) =
      weightedMean (fun y => done (y 0).1 (y 1).1 (y 2).1) (fun y => A (fc3Pos n y : Nat)) x :=
  cutoffPairs_value n done A hx

/-- C71: the result is symmetric under all permutations of the legs. -/
theorem C71_symmetric (n : Nat) (done : Nat → Nat → Nat → Nat) (A : Int → K) :
    PermutationSymmetric n fun x => cutoffFc3ForCutoffPairs n done A (fc3Pos n x : Nat) := by
  intro x hx σ
  show cutoffFc3ForCutoffPairs n done A (fc3Pos n (x ∘ σ) : Nat) = _
  exact (cutoffPairs_value n done A (Legs.Valid.perm hx σ)).trans
    ((weightedMean_perm _ _ x σ).trans (cutoffPairs_value n done A hx).symm)

/-- C71: elements of which no permutation was computed vanish. -/
theorem C71_zero (n : Nat) (done : Nat → Nat → Nat → Nat) (A : Int → K) (x : Legs)
    (hx : Legs.Valid n x)
    (h : ∀ σ : Equiv.Perm (Fin 3), done (x (σ 0)).1 (x (σ 1)).1 (x (σ 2)).1 = 0) :
    cutoffFc3ForCutoffPairs n done A (fc3Pos n x : Nat) = 0 := by
  rw [cutoffPairs_value n done A hx]
  unfold weightedMean
  rw [if_neg]
  have : ∑ σ : Equiv.Perm (Fin 3), flagOf done (x ∘ σ) = 0 :=
    Finset.sum_eq_zero fun σ _ => h σ
  omega

/-- C71: if the computed elements are those of symmetric force constants `f`, every element with
a computed permutation is obtained exactly, including those not computed themselves. -/
theorem C71_exact (n : Nat) (done : Nat → Nat → Nat → Nat) (A : Int → K) (f : Legs → K)
    (hf : PermutationSymmetric n f)
    (hA : ∀ x, Legs.Valid n x → 0 < done (x 0).1 (x 1).1 (x 2).1 → A (fc3Pos n x : Nat) = f x)
    (x : Legs) (hx : Legs.Valid n x) (σ : Equiv.Perm (Fin 3))
    (h : 0 < done (x (σ 0)).1 (x (σ 1)).1 (x (σ 2)).1) :
    cutoffFc3ForCutoffPairs n done A (fc3Pos n x : Nat) = f x := by
  rw [cutoffPairs_value n done A hx]
  refine weightedMean_of_const (fun τ hτ => ?_) ?_
  · show A (fc3Pos n (x ∘ τ) : Nat) = f x
    rw [hA _ (Legs.Valid.perm hx τ) hτ, hf x hx τ]
  · exact lt_of_lt_of_le (show 0 < flagOf done (x ∘ σ) from h)
      (Finset.single_le_sum (f := fun τ : Equiv.Perm (Fin 3) => flagOf done (x ∘ τ))
        (fun _ _ => Nat.zero_le _) (Finset.mem_univ σ))

/-- C71: a second application changes nothing. -/
theorem C71_idempotent (n : Nat) (done : Nat → Nat → Nat → Nat) (A : Int → K) (x : Legs)
    (hx : Legs.Valid n x) :
    cutoffFc3ForCutoffPairs n done (cutoffFc3ForCutoffPairs n done A) (fc3Pos n x : Nat) =
      cutoffFc3ForCutoffPairs n done A (fc3Pos n x : Nat) := by
  rw [cutoffPairs_value n done _ hx, cutoffPairs_value n done A hx]
  apply weightedMean_fix
  intro σ
  show cutoffFc3ForCutoffPairs n done A (fc3Pos n (x ∘ σ) : Nat) = _
  rw [cutoffPairs_value n done A (Legs.Valid.perm hx σ), weightedMean_perm]

/-- C71: with everything computed it is the plain permutation symmetrisation. -/
theorem C71_all_done (n : Nat) (A : Int → K) (x : Legs) (hx : Legs.Valid n x) :
    cutoffFc3ForCutoffPairs n (fun _ _ _ => 1) A (fc3Pos n x : Nat) =
      setPermutationSymmetryFc3 n A (fc3Pos n x) := by
  rw [cutoffPairs_value n _ A hx, C31_value n A x hx]
  unfold weightedMean permutationMean flagOf
  have hc : ∑ _σ : Equiv.Perm (Fin 3), 1 = 6 := by decide +kernel
  rw [hc]
  simp

/-- C31: without the C library the symmetrisation gives the same array. -/
theorem C31_python (n : Nat) (A : Int → K) (x : Legs) (hx : Legs.Valid n x) :
    setPermutationSymmetryFc3Py n A (fc3Pos n x : Nat) =
      setPermutationSymmetryFc3 n A (fc3Pos n x) := by
  rw [← C71_all_done n A x hx]
  unfold setPermutationSymmetryFc3Py cutoffFc3ForCutoffPairs cutoffStep cutoffElem
  norm_num

example : (fun a b _ => if a + b ≤ 1 then 1 else 0 : Nat → Nat → Nat → Nat) 0 1 1 = 1 ∧
    cutoffFc3ForCutoffPairs 2 (fun a b _ => if a + b ≤ 1 then 1 else 0)
      (fun p => (p : ℚ)) (fc3Pos 2 ![(1, 0), (1, 0), (1, 0)] : Nat) = 0 ∧
    cutoffFc3ForCutoffPairs 2 (fun a b _ => if a + b ≤ 1 then 1 else 0)
      (fun p => (p : ℚ)) (fc3Pos 2 ![(1, 0), (1, 0), (0, 0)] : Nat) ≠ 0 := by decide +kernel

/-! ## C72: cutoff by zero -/

theorem zero_fold {τ : Type _} (step : (Int → K) → τ → Int → K) (Z : τ → Int → Prop)
    (hs : ∀ A t p, (Z t p → step A t p = 0) ∧ (¬ Z t p → step A t p = A p)) (ts : List τ) :
    ∀ (A : Int → K) (p : Int), ((∃ t ∈ ts, Z t p) → ts.foldl step A p = 0) ∧
      ((∀ t ∈ ts, ¬ Z t p) → ts.foldl step A p = A p) := by
  induction ts with
  | nil => intro A p; exact ⟨fun ⟨_, h, _⟩ => absurd h (by simp), fun _ => rfl⟩
  | cons t ts ih =>
    intro A p
    rw [List.foldl_cons]
    obtain ⟨i1, i2⟩ := ih (step A t) p
    constructor
    · rintro ⟨u, hu, hz⟩
      by_cases hc : ∃ v ∈ ts, Z v p
      · exact i1 hc
      · rw [i2 fun v hv hz => hc ⟨v, hv, hz⟩]
        rcases List.mem_cons.mp hu with rfl | hu
        · exact (hs A _ p).1 hz
        · exact absurd ⟨u, hu, hz⟩ hc
    · intro h
      rw [i2 fun v hv => h v (by simp [hv])]
      exact (hs A t p).2 (h t (by simp))

/-- Some pair of the three atoms is farther apart than the cutoff. -/
def Beyond (dist : Nat → Nat → K) (cutoff : K) (i j k : Nat) : Prop :=
  dist i j > cutoff ∨ dist j k > cutoff ∨ dist k i > cutoff

theorem byZero_rows (n : Nat) (dist : Nat → Nat → K) (cutoff : K) (rows : List Nat)
    (A : Int → K) (x : Legs) (hx : Slot n x) (i : Nat) (hi : rows[(x 0).1]? = some i) :
    (Beyond dist cutoff i (x 1).1 (x 2).1 →
      rows.zipIdx.foldl (fun fc3 r =>
      (loop n fun j => (List.range n).map fun k => (j, k)).foldl (fun fc3 t =>
        if [(r.1, t.1), (t.1, t.2), (t.2, r.1)].any fun p => decide (dist p.1 p.2 > cutoff) then
          runWrites fc3 (cart27.map fun c => (fc3Adr n r.2 t.1 t.2 c.1 c.2.1 c.2.2, 0))
        else fc3) fc3) A (fc3Pos n x : Nat) = 0) ∧
    (¬ Beyond dist cutoff i (x 1).1 (x 2).1 →
      rows.zipIdx.foldl (fun fc3 r =>
      (loop n fun j => (List.range n).map fun k => (j, k)).foldl (fun fc3 t =>
        if [(r.1, t.1), (t.1, t.2), (t.2, r.1)].any fun p => decide (dist p.1 p.2 > cutoff) then
          runWrites fc3 (cart27.map fun c => (fc3Adr n r.2 t.1 t.2 c.1 c.2.1 c.2.2, 0))
        else fc3) fc3) A (fc3Pos n x : Nat) = A (fc3Pos n x : Nat)) := by
  -- the cells zeroed for one row and one pair of atoms
  let Zi : Nat × Nat → Nat × Nat → Int → Prop := fun r t p =>
    Beyond dist cutoff r.1 t.1 t.2 ∧ ∃ a < 3, ∃ b < 3, ∃ c < 3,
      p = (fc3Pos n ![(r.2, a), (t.1, b), (t.2, c)] : Nat)
  let Zo : Nat × Nat → Int → Prop := fun r p => ∃ j < n, ∃ k < n, Zi r (j, k) p
  have hinner : ∀ (r : Nat × Nat) (A : Int → K) (t : Nat × Nat) (p : Int),
      (Zi r t p → (if [(r.1, t.1), (t.1, t.2), (t.2, r.1)].any fun p =>
          decide (dist p.1 p.2 > cutoff) then
        runWrites A (cart27.map fun c => (fc3Adr n r.2 t.1 t.2 c.1 c.2.1 c.2.2, 0)) else A) p = 0)
      ∧ (¬ Zi r t p → (if [(r.1, t.1), (t.1, t.2), (t.2, r.1)].any fun p =>
          decide (dist p.1 p.2 > cutoff) then
        runWrites A (cart27.map fun c => (fc3Adr n r.2 t.1 t.2 c.1 c.2.1 c.2.2, 0)) else A) p =
          A p) := by
    intro r A t p
    have hb : ([(r.1, t.1), (t.1, t.2), (t.2, r.1)].any fun p =>
        decide (dist p.1 p.2 > cutoff)) = true ↔ Beyond dist cutoff r.1 t.1 t.2 := by
      simp [Beyond]
    have hmem : ∀ w : Int × K, w ∈ (cart27.map fun c =>
        (fc3Adr n r.2 t.1 t.2 c.1 c.2.1 c.2.2, (0 : K))) ↔ ∃ a < 3, ∃ b < 3, ∃ c < 3,
          w = (((fc3Pos n ![(r.2, a), (t.1, b), (t.2, c)] : Nat) : Int), 0) := by
      intro w
      simp only [cart27, List.mem_map, mem_loop, List.mem_singleton, fc3Adr_eq]
      constructor
      · rintro ⟨q, ⟨a, ha, b, hb, c, hc, rfl⟩, rfl⟩
        exact ⟨a, ha, b, hb, c, hc, rfl⟩
      · rintro ⟨a, ha, b, hb, c, hc, rfl⟩
        exact ⟨(a, b, c), ⟨a, ha, b, hb, c, hc, rfl⟩, rfl⟩
    constructor
    · rintro ⟨h1, a, ha, b, hb', c, hc, rfl⟩
      rw [if_pos (hb.mpr h1)]
      refine runWrites_value A _ ?_ (((fc3Pos n ![(r.2, a), (t.1, b), (t.2, c)] : Nat) : Int), 0)
        ((hmem _).mpr ⟨a, ha, b, hb', c, hc, rfl⟩)
      intro u hu w hw _
      obtain ⟨_, _, _, _, _, _, rfl⟩ := (hmem u).mp hu
      obtain ⟨_, _, _, _, _, _, rfl⟩ := (hmem w).mp hw
      rfl
    · intro hz
      by_cases h1 : Beyond dist cutoff r.1 t.1 t.2
      · rw [if_pos (hb.mpr h1)]
        apply runWrites_untouched
        intro w hw he
        obtain ⟨a, ha, b, hb', c, hc, rfl⟩ := (hmem w).mp hw
        exact hz ⟨h1, a, ha, b, hb', c, hc, he.symm⟩
      · rw [if_neg fun h => h1 (hb.mp h)]
  have hmemP : ∀ t : Nat × Nat, t ∈ (loop n fun j => (List.range n).map fun k => (j, k)) ↔
      t.1 < n ∧ t.2 < n := by
    rintro ⟨j, k⟩
    simp only [mem_loop, List.mem_map, List.mem_range, Prod.mk.injEq]
    constructor
    · rintro ⟨a, ha, b, hb, rfl, rfl⟩; exact ⟨ha, hb⟩
    · rintro ⟨ha, hb⟩; exact ⟨j, ha, k, hb, rfl, rfl⟩
  have houter := zero_fold (K := K) (fun fc3 (r : Nat × Nat) =>
      (loop n fun j => (List.range n).map fun k => (j, k)).foldl (fun fc3 t =>
        if [(r.1, t.1), (t.1, t.2), (t.2, r.1)].any fun p => decide (dist p.1 p.2 > cutoff) then
          runWrites fc3 (cart27.map fun c => (fc3Adr n r.2 t.1 t.2 c.1 c.2.1 c.2.2, 0))
        else fc3) fc3) Zo (by
    intro A r p
    obtain ⟨i1, i2⟩ := zero_fold _ (Zi r) (hinner r)
      (loop n fun j => (List.range n).map fun k => (j, k)) A p
    constructor
    · rintro ⟨j, hj, k, hk, hz⟩
      exact i1 ⟨(j, k), (hmemP _).mpr ⟨hj, hk⟩, hz⟩
    · intro h
      refine i2 fun t ht hz => h ?_
      obtain ⟨hj, hk⟩ := (hmemP t).mp ht
      exact ⟨t.1, hj, t.2, hk, hz⟩) rows.zipIdx A (fc3Pos n x : Nat)
  have hrow : ∀ r ∈ rows.zipIdx, r.2 = (x 0).1 → r.1 = i := by
    intro r hr he
    rw [List.mem_zipIdx_iff_getElem?] at hr
    rw [he, hi] at hr
    exact (Option.some.inj hr).symm
  have hx' : x = ![((x 0).1, (x 0).2), ((x 1).1, (x 1).2), ((x 2).1, (x 2).2)] := by
    funext s; fin_cases s <;> rfl
  have hiff : (∃ r ∈ rows.zipIdx, Zo r (fc3Pos n x : Nat)) ↔
      Beyond dist cutoff i (x 1).1 (x 2).1 := by
    constructor
    · rintro ⟨r, hr, j, hj, k, hk, hb, a, ha, b, hb', c, hc, he⟩
      have := fc3Pos_inj hx (y := ![(r.2, a), (j, b), (k, c)])
        ⟨hj, hk, fun s => by fin_cases s <;> assumption⟩ (Int.ofNat.inj he)
      have e0 : r.2 = (x 0).1 := by rw [this]; rfl
      have e1 : j = (x 1).1 := by rw [this]; rfl
      have e2 : k = (x 2).1 := by rw [this]; rfl
      rw [← hrow r hr e0, ← e1, ← e2]
      exact hb
    · intro hb
      refine ⟨(i, (x 0).1), List.mem_zipIdx_iff_getElem?.mpr hi, (x 1).1, hx.1, (x 2).1, hx.2.1, hb,
        (x 0).2, hx.2.2 0, (x 1).2, hx.2.2 1, (x 2).2, hx.2.2 2, ?_⟩
      exact congrArg (fun y => ((fc3Pos n y : Nat) : Int)) hx'
  constructor
  · intro hb
    exact houter.1 (hiff.mpr hb)
  · intro hb
    exact houter.2 fun r hr hz => hb (hiff.mp ⟨r, hr, hz⟩)

/-- C72: on a full array, elements are set to zero exactly when two of the three atoms are
farther apart than the cutoff; all others are kept. -/
theorem C72_full (n : Nat) (dist : Nat → Nat → K) (cutoff : K) (p2s : Option (List Nat))
    (A : Int → K) : ∃ A', cutoffFc3ByZero n n dist cutoff p2s A = some A' ∧
      ∀ x, Legs.Valid n x →
        (Beyond dist cutoff (x 0).1 (x 1).1 (x 2).1 → A' (fc3Pos n x : Nat) = 0) ∧
        (¬ Beyond dist cutoff (x 0).1 (x 1).1 (x 2).1 →
          A' (fc3Pos n x : Nat) = A (fc3Pos n x : Nat)) := by
  unfold cutoffFc3ByZero
  simp only [if_true, Option.map_some]
  exact ⟨_, rfl, fun x hx => byZero_rows n dist cutoff (List.range n) A x (Legs.Valid.slot hx)
    (x 0).1 (by rw [List.getElem?_range (hx 0).1])⟩

/-- C72: on a compact array, row `q` belongs to the atom `p2s[q]`. -/
theorem C72_compact (n0 n : Nat) (h0 : n0 ≠ n) (dist : Nat → Nat → K) (cutoff : K)
    (p2s : List Nat) (hl : p2s.length = n0) (A : Int → K) :
    ∃ A', cutoffFc3ByZero n0 n dist cutoff (some p2s) A = some A' ∧
      ∀ (x : Legs) (i : Nat), Legs.Valid n x → p2s[(x 0).1]? = some i →
        (Beyond dist cutoff i (x 1).1 (x 2).1 → A' (fc3Pos n x : Nat) = 0) ∧
        (¬ Beyond dist cutoff i (x 1).1 (x 2).1 →
          A' (fc3Pos n x : Nat) = A (fc3Pos n x : Nat)) := by
  unfold cutoffFc3ByZero
  simp only [h0, if_false, hl, ne_eq, not_true_eq_false, Option.map_some]
  exact ⟨_, rfl, fun x i hx hi => byZero_rows n dist cutoff p2s A x (Legs.Valid.slot hx) i hi⟩

/-- C72: the shapes are rejected exactly when the array is not full and there is no map of
matching length. -/
theorem C72_error_iff (n0 n : Nat) (dist : Nat → Nat → K) (cutoff : K)
    (p2s : Option (List Nat)) (A : Int → K) :
    cutoffFc3ByZero n0 n dist cutoff p2s A = none ↔
      n0 ≠ n ∧ ∀ l, p2s = some l → l.length ≠ n0 := by
  unfold cutoffFc3ByZero
  by_cases h0 : n0 = n
  · simp [h0]
  · cases p2s with
    | none => simp [h0]
    | some l =>
      by_cases hl : l.length = n0
      · simp [h0, hl]
      · simp [h0, hl]

/-- C72: permutation symmetry survives the cutoff when distances are symmetric. -/
theorem C72_symmetric (n : Nat) (dist : Nat → Nat → K) (hd : ∀ i j, dist i j = dist j i)
    (cutoff : K) (A A' : Int → K)
    (hA : PermutationSymmetric n fun x => A (fc3Pos n x : Nat))
    (h : cutoffFc3ByZero n n dist cutoff none A = some A') :
    PermutationSymmetric n fun x => A' (fc3Pos n x : Nat) := by
  obtain ⟨A'', h1, h2⟩ := C72_full n dist cutoff none A
  rw [h] at h1
  obtain rfl := Option.some.inj h1
  intro x hx σ
  have hb : Beyond dist cutoff ((x ∘ σ) 0).1 ((x ∘ σ) 1).1 ((x ∘ σ) 2).1 ↔
      Beyond dist cutoff (x 0).1 (x 1).1 (x 2).1 := by
    have hs : ∀ y : Legs, Beyond dist cutoff (y 0).1 (y 1).1 (y 2).1 ↔
        ∃ a b : Fin 3, a ≠ b ∧ dist (y a).1 (y b).1 > cutoff := by
      intro y
      constructor
      · rintro (h | h | h)
        · exact ⟨0, 1, by decide, h⟩
        · exact ⟨1, 2, by decide, h⟩
        · exact ⟨2, 0, by decide, h⟩
      · rintro ⟨a, b, hab, h⟩
        unfold Beyond
        fin_cases a <;> fin_cases b
        · exact absurd rfl hab
        · exact Or.inl h
        · exact Or.inr (Or.inr (by rw [hd]; exact h))
        · exact Or.inl (by rw [hd]; exact h)
        · exact absurd rfl hab
        · exact Or.inr (Or.inl h)
        · exact Or.inr (Or.inr h)
        · exact Or.inr (Or.inl (by rw [hd]; exact h))
        · exact absurd rfl hab
    rw [hs, hs]
    constructor
    · rintro ⟨a, b, hab, h⟩
      exact ⟨σ a, σ b, fun he => hab (σ.injective he), h⟩
    · rintro ⟨a, b, hab, h⟩
      refine ⟨σ.symm a, σ.symm b, fun he => hab (σ.symm.injective he), ?_⟩
      show dist (x (σ (σ.symm a))).1 (x (σ (σ.symm b))).1 > cutoff
      rw [Equiv.apply_symm_apply, Equiv.apply_symm_apply]
      exact h
  by_cases hc : Beyond dist cutoff (x 0).1 (x 1).1 (x 2).1
  · show A' (fc3Pos n (x ∘ σ) : Nat) = A' (fc3Pos n x : Nat)
    rw [(h2 _ (Legs.Valid.perm hx σ)).1 (hb.mpr hc), (h2 x hx).1 hc]
  · show A' (fc3Pos n (x ∘ σ) : Nat) = A' (fc3Pos n x : Nat)
    rw [(h2 _ (Legs.Valid.perm hx σ)).2 (fun h => hc (hb.mp h)), (h2 x hx).2 hc]
    exact hA x hx σ

example : (cutoffFc3ByZero 2 2 (fun i j => if i = j then 0 else (3 : ℚ)) 2 none
    (fun _ => 1)).map (fun A => (A (fc3Pos 2 ![(1, 0), (1, 0), (1, 0)] : Nat),
      A (fc3Pos 2 ![(1, 0), (0, 0), (1, 0)] : Nat))) = some (1, 0) := by decide +kernel

end

/-! ## C74: pairs counted as computed -/

/-- C74: although the images of the second atoms under all reduced site operations but the last
are discarded, the pairs counted as computed are exactly the images of the pairs in the dataset
under the symmetry operations, as long as these form a group that contains the site operations. -/
theorem C74_pairs (n : Nat) (ops : List (Nat → Nat))
    (firsts : List (List (Nat → Nat) × Nat × List Nat))
    (hops : ∀ o ∈ ops, ∀ i < n, o i < n)
    (hmul : ∀ o ∈ ops, ∀ g ∈ ops, ∃ o' ∈ ops, ∀ i < n, o' i = o (g i))
    (hinv : ∀ g ∈ ops, ∃ h ∈ ops, ∀ i < n, g (h i) = i ∧ h (g i) = i)
    (hlt : ∀ d ∈ firsts, d.2.1 < n ∧ ∀ j ∈ d.2.2, j < n)
    (hne : ∀ d ∈ firsts, d.1 ≠ [])
    (hsite : ∀ d ∈ firsts, ∀ g ∈ d.1, g d.2.1 = d.2.1 ∧ ∃ o ∈ ops, ∀ i < n, o i = g i)
    (a b : Nat) :
    (fc3Done ops firsts a b = 1 ∨ fc3Done ops firsts a b = 0) ∧
    (fc3Done ops firsts a b = 1 ↔
      ∃ d ∈ firsts, ∃ j ∈ d.2.2, ∃ o ∈ ops, a = o d.2.1 ∧ b = o j) := by
  have key : ∀ (ds : List (List (Nat → Nat) × Nat × List Nat)) (done : Nat → Nat → Nat),
      (∀ d ∈ ds, d ∈ firsts) →
      ((∃ d ∈ ds, ∃ j ∈ d.2.2, ∃ o ∈ ops, a = o d.2.1 ∧ b = o j) →
        ds.foldl (fun done d => fc3DoneStep ops d.1 done d.2) done a b = 1) ∧
      ((∀ d ∈ ds, ∀ j ∈ d.2.2, ∀ o ∈ ops, ¬ (a = o d.2.1 ∧ b = o j)) →
        ds.foldl (fun done d => fc3DoneStep ops d.1 done d.2) done a b = done a b) := by
    intro ds
    induction ds with
    | nil =>
      intro done _
      exact ⟨fun ⟨_, h, _⟩ => absurd h (by simp), fun _ => rfl⟩
    | cons d ds ih =>
      intro done hds
      have hd : d ∈ firsts := hds d (by simp)
      obtain ⟨g, hg, hstep⟩ := fc3DoneStep_eq ops d.1 done d.2 (hne d hd)
      obtain ⟨hgf, g', hg', hgg⟩ := hsite d hd g hg
      have hiff : (∃ o ∈ ops, ∃ j ∈ d.2.2, a = o d.2.1 ∧ b = o (g j)) ↔
          ∃ j ∈ d.2.2, ∃ o ∈ ops, a = o d.2.1 ∧ b = o j := by
        constructor
        · rintro ⟨o, ho, j, hj, h1, h2⟩
          obtain ⟨o', ho', he⟩ := hmul o ho g' hg'
          refine ⟨j, hj, o', ho', ?_, ?_⟩
          · rw [he _ (hlt d hd).1, hgg _ (hlt d hd).1, hgf, h1]
          · rw [he _ ((hlt d hd).2 j hj), hgg _ ((hlt d hd).2 j hj), h2]
        · rintro ⟨j, hj, o, ho, h1, h2⟩
          obtain ⟨k, hk, hki⟩ := hinv g' hg'
          obtain ⟨o', ho', he⟩ := hmul o ho k hk
          have hjn := (hlt d hd).2 j hj
          have hfn := (hlt d hd).1
          have hgn : g d.2.1 < n := by rw [hgf]; exact hfn
          refine ⟨o', ho', j, hj, ?_, ?_⟩
          · have := (hki d.2.1 hfn).2
            rw [hgg _ hfn, hgf] at this
            rw [he _ hfn, this, h1]
          · have hgj : g j < n := by rw [← hgg _ hjn]; exact hops g' hg' j hjn
            have := (hki j hjn).2
            rw [hgg _ hjn] at this
            rw [he _ hgj, this, h2]
      rw [List.foldl_cons]
      obtain ⟨i1, i2⟩ := ih (fc3DoneStep ops d.1 done d.2) fun d' hd' => hds d' (by simp [hd'])
      have hs := hstep a b
      constructor
      · rintro ⟨d', hd', hp⟩
        by_cases hc : ∃ d' ∈ ds, ∃ j ∈ d'.2.2, ∃ o ∈ ops, a = o d'.2.1 ∧ b = o j
        · exact i1 hc
        · rw [i2 fun e he j hj o ho hh => hc ⟨e, he, j, hj, o, ho, hh⟩, hs]
          rcases List.mem_cons.mp hd' with rfl | hd'
          · rw [if_pos (hiff.mpr hp)]
          · exact absurd ⟨d', hd', hp⟩ hc
      · intro h
        rw [i2 fun e he => h e (by simp [he]), hs, if_neg]
        intro hc
        obtain ⟨j, hj, o, ho, hh⟩ := hiff.mp hc
        exact h d (by simp) j hj o ho hh
  obtain ⟨k1, k2⟩ := key firsts (fun _ _ => 0) fun _ h => h
  by_cases hc : ∃ d ∈ firsts, ∃ j ∈ d.2.2, ∃ o ∈ ops, a = o d.2.1 ∧ b = o j
  · exact ⟨Or.inl (k1 hc), fun _ => hc, fun _ => k1 hc⟩
  · have h0 : fc3Done ops firsts a b = 0 :=
      k2 fun d hd j hj o ho hh => hc ⟨d, hd, j, hj, o, ho, hh⟩
    refine ⟨Or.inr h0, fun h1 => ?_, fun h => absurd h hc⟩
    rw [h0] at h1
    exact absurd h1 (by simp)

example : fc3Done [id, fun i => (i + 1) % 3, fun i => (i + 2) % 3]
    [([id], 0, [0, 1])] 2 0 = 1 ∧
    fc3Done [id, fun i => (i + 1) % 3, fun i => (i + 2) % 3] [([id], 0, [0, 1])] 0 2 = 0 := by
  decide +kernel

end Phono3py.Props
