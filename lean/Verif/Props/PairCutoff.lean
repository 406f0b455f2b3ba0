import Verif.Model.PairCutoff
import Verif.Props.Phono3pyYaml
import Mathlib.Order.MinMax

/-!
# C139: the cutoff of pair distances given when fc3 is made

`--cutoff-pair` with a value below the one used for the displacements should leave out the pairs
beyond the new value.
-/

namespace Phono3py.Props

variable {V K : Type} [LinearOrder K]

/-! ## Specification -/

/-- The smaller of two cutoffs, of which either may be absent. -/
def smallerCutoff : Option K → Option K → Option K
  | none, b => b
  | some a, none => some a
  | some a, some b => some (min a b)

/-- The second atoms of a first atom at a distance below a cutoff. -/
def secondAtomsWithin (dist : Nat → Nat → K) (c : K) (d1 : KeyedFirst V K) : List Nat :=
  (d1.second.map (fun d2 => d2.number)).filter (fun j => decide (dist d1.number j < c))

/-! ## The model -/

theorem leastSecondAtoms_fold (near : K → K → Bool) (dist : Nat → Nat → K) (cutoff : Option K)
    (n : Nat) (t : KeyedSecond V K → Bool) (l : List (KeyedSecond V K))
    (h : ∀ d2 ∈ l, pairTaken near dist cutoff n d2 = some (t d2)) :
    ∀ acc : List Nat, l.foldl (fun (acc : Option (List Nat)) d2 =>
      acc.bind fun l => (pairTaken near dist cutoff n d2).map fun b =>
        if b then l ++ [d2.number] else l) (some acc) =
      some (acc ++ (l.filter t).map (fun d2 => d2.number)) := by
  induction l with
  | nil => intro acc; simp
  | cons d l ih =>
    intro acc
    have hd := h d (List.mem_cons_self ..)
    have hl := ih (fun d2 h2 => h d2 (List.mem_cons_of_mem _ h2))
    rw [List.foldl_cons]
    simp only [Option.bind_some, hd, Option.map_some]
    rw [hl]
    cases ht : t d <;> simp [ht]

theorem leastSecondAtoms_eq (near : K → K → Bool) (dist : Nat → Nat → K) (cutoff : Option K)
    (d1 : KeyedFirst V K) (t : KeyedSecond V K → Bool)
    (h : ∀ d2 ∈ d1.second, pairTaken near dist cutoff d1.number d2 = some (t d2)) :
    leastSecondAtoms near dist cutoff d1 = some ((d1.second.filter t).map (fun d2 => d2.number)) := by
  unfold leastSecondAtoms
  rw [leastSecondAtoms_fold near dist cutoff d1.number t d1.second h []]
  simp

/-! ## C139 -/

/-- **C139**. The cutoff in use is the smaller one of that of the displacements and that of the
option; nothing else of the dataset changes. -/
theorem C139_cutoff_smaller (cutoff : Option K) (ds : KeyedDataset V K) :
    overwriteCutoff cutoff ds = { ds with cutoff := smallerCutoff cutoff ds.cutoff } := by
  unfold overwriteCutoff
  cases cutoff with
  | none => rfl
  | some c =>
    cases hd : ds.cutoff with
    | none => simp [smallerCutoff]
    | some d =>
      by_cases hlt : c < d
      · simp [smallerCutoff, hlt, min_eq_left hlt.le]
      · simp only [smallerCutoff, hlt, if_false, min_eq_right (not_lt.1 hlt), ← hd]

/-- **C139**, the part that holds. For pairs without inclusion marks, the pairs of atoms taken as
computed are those below the smaller of the two cutoffs. -/
theorem C139_pairs_partial (near : K → K → Bool) (dist : Nat → Nat → K) (cutoff : Option K)
    (ds : KeyedDataset V K) (d1 : KeyedFirst V K) (h1 : d1 ∈ (overwriteCutoff cutoff ds).first)
    (c : K) (hc : smallerCutoff cutoff ds.cutoff = some c)
    (hm : ∀ d2 ∈ d1.second, d2.included = none)
    (hn : ∀ d2 ∈ d1.second, ∀ x, d2.pairDistance = some x → near (dist d1.number d2.number) x) :
    d1 ∈ ds.first ∧
    leastSecondAtoms near dist (overwriteCutoff cutoff ds).cutoff d1 =
      some (secondAtomsWithin dist c d1) := by
  rw [C139_cutoff_smaller] at h1 ⊢
  refine ⟨h1, ?_⟩
  dsimp only
  rw [hc, leastSecondAtoms_eq near dist (some c) d1
    (fun d2 => decide (dist d1.number d2.number < c))]
  · simp only [secondAtomsWithin, List.filter_map, Function.comp_def]
  · intro d2 h2
    simp only [pairTaken, hm d2 h2]
    cases hp : d2.pairDistance with
    | none => simp
    | some x => simp [hn d2 h2 x hp]

/-- **C139**, the violation. Where the pairs have inclusion marks, as they do if the displacements
were made with a cutoff, the option has no effect on the pairs that are taken. -/
theorem C139_marks_first (near : K → K → Bool) (dist : Nat → Nat → K) (cutoff : Option K)
    (ds : KeyedDataset V K) (d1 : KeyedFirst V K)
    (hm : ∀ d2 ∈ d1.second, d2.included.isSome) :
    leastSecondAtoms near dist (overwriteCutoff cutoff ds).cutoff d1 =
      some ((d1.second.filter (fun d2 => d2.included == some true)).map (fun d2 => d2.number)) := by
  refine leastSecondAtoms_eq near dist _ d1 _ ?_
  intro d2 h2
  have := hm d2 h2
  cases hi : d2.included with
  | none => simp [hi] at this
  | some b => cases b <;> simp [pairTaken, hi]

/-- Displacements of atoms 1 to 3 at distances 1, 5 and 9 made with the cutoff 6. -/
def markedFirst : KeyedFirst Int Nat :=
  ⟨some 1, 0, 0, none, none,
    [⟨some 2, 1, 0, some 1, some true, none, none⟩, ⟨some 3, 2, 0, some 5, some true, none, none⟩,
      ⟨some 4, 3, 0, some 9, some false, none, none⟩]⟩

/-- **C139**, a case of the violation: with `--cutoff-pair` 4 the pair at distance 5 is still taken. -/
theorem C139_marks_witness :
    leastSecondAtoms (fun x y => decide (x = y)) (fun _ j => 4 * j - 3)
        (overwriteCutoff (some 4) ⟨4, [], some 6, [markedFirst]⟩).cutoff markedFirst =
      some [1, 2] ∧
    secondAtomsWithin (fun _ j => 4 * j - 3) 4 markedFirst = [1] := by
  decide +kernel

/-- **C139**, from displacements made with a cutoff to the pairs. The marks of the displacements in
phono3py_disp.yaml survive reading as long as the file has no forces, so that `C139_marks_first`
applies to what `phono3py` makes itself. -/
theorem C139_marks_survive (r16 : V → V) (r8 : K → K) (ds loaded : KeyedDataset V K)
    (h : DatasetInOrder ds) (hm : ∀ d1 ∈ ds.first, ∀ d2 ∈ d1.second, d2.included.isSome)
    (hl : (saveDataset r16 r8 false ds).bind (loadDataset ds.natom) = some loaded) :
    ∀ d1 ∈ loaded.first, ∀ d2 ∈ d1.second, d2.included.isSome := by
  rw [C135_round_trip_partial r16 r8 false ds h, Option.some.injEq] at hl
  have key : ∀ (l : List (KeyedFirst V K)) (i c : Nat),
      (∀ d1 ∈ l, ∀ d2 ∈ d1.second, d2.included.isSome) →
      ∀ d1 ∈ readBackFirst r16 r8 false i c l, ∀ d2 ∈ d1.second, d2.included.isSome := by
    intro l
    induction l with
    | nil => intro i c _ d1 h1; simp [readBackFirst] at h1
    | cons d l ih =>
      intro i c hl d1 h1
      rcases List.mem_cons.1 h1 with rfl | h1
      · intro d2 h2
        obtain ⟨e, he, j, rfl⟩ := numberedFrom_mem h2
        obtain ⟨x, hx, rfl⟩ := List.mem_map.1 he
        simpa [readBackSecond] using hl d (by simp) x hx
      · exact ih _ _ (fun a ha => hl a (by simp [ha])) d1 h1
  rw [← hl]
  exact key ds.first _ _ hm

example : smallerCutoff (some 4) (some 6) = some 4 := by decide +kernel

-- `C139_pairs_partial`: the same pairs without marks.
example : leastSecondAtoms (fun x y => decide (x = y)) (fun _ j => 4 * j - 3)
    (overwriteCutoff (some 6) (⟨4, [], none, []⟩ : KeyedDataset Int Nat)).cutoff
      { markedFirst with second := markedFirst.second.map fun d => { d with included := none } } =
    some [1, 2] := by decide +kernel

end Phono3py.Props
