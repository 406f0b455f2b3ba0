import Verif.Spec.Dataset
import Mathlib.Tactic.Ring
import Mathlib.Tactic.Linarith
import Mathlib.Data.List.Basic
import Mathlib.Algebra.Order.Field.Rat

/-!
# Displacement ids, supercells, arrays and force files (C45, C46, C48, C49, C50, C85)
-/

namespace Phono3py.Props

open Phono3py

section Ids
variable {D V K : Type} [AddMonoid V] [LT K] [DecidableLT K]

theorem stampDirections_ids (cart : D → V) (n : Nat) (r : K) (inc : Option Bool) (c : Nat)
    (ds : List D) :
    (stampDirections cart n r inc c ds).map (fun d => d.id) = List.range' c ds.length := by
  induction ds generalizing c with
  | nil => rfl
  | cons d ds ih => simp [stampDirections, ih, List.range'_succ]

theorem stampDirections_map (cart : D → V) (n : Nat) (r : K) (inc : Option Bool) (c : Nat)
    (ds : List D) {α : Type} (g : Nat → V → Option Bool → α) :
    (stampDirections cart n r inc c ds).map (fun d => g d.number d.displacement d.included) =
      ds.map (fun d => g n (cart d) inc) := by
  induction ds generalizing c with
  | nil => rfl
  | cons d ds ih => simp [stampDirections, ih]

theorem stampSecond_ids (cart : D → V) (cutoff : Option K) (c : Nat) (ss : List (DirSecond D K)) :
    (stampSecond cart cutoff c ss).map (fun d => d.id) =
      List.range' c (ss.map (fun s => s.directions.length)).sum := by
  induction ss generalizing c with
  | nil => rfl
  | cons s ss ih =>
    simp only [stampSecond, List.map_append, stampDirections_ids, ih, List.map_cons, List.sum_cons]
    rw [List.range'_append_1]

theorem stampSecond_map (cart : D → V) (cutoff : Option K) (c : Nat) (ss : List (DirSecond D K))
    {α : Type} (g : Nat → V → Option Bool → α) :
    (stampSecond cart cutoff c ss).map (fun d => g d.number d.displacement d.included) =
      ss.flatMap (fun s => s.directions.map (fun d =>
        g s.number (cart d) (cutoff.map (fun r => decide (s.distance < r))))) := by
  induction ss generalizing c with
  | nil => rfl
  | cons s ss ih =>
    simp only [stampSecond, List.map_append, stampDirections_map, ih, List.flatMap_cons]

theorem stampFirst_ids (cart : D → V) (cutoff : Option K) (i c : Nat) (ds : List (DirFirst D K)) :
    (stampFirst cart cutoff i c ds).map (fun d => d.id) = List.range' (i + 1) ds.length := by
  induction ds generalizing i c with
  | nil => rfl
  | cons d ds ih => simp [stampFirst, ih, List.range'_succ]

theorem stampFirst_pair_ids (cart : D → V) (cutoff : Option K) (i c : Nat)
    (ds : List (DirFirst D K)) :
    ((stampFirst cart cutoff i c ds).flatMap (fun d1 => d1.second.map (fun d2 => d2.id))) =
      List.range' c (ds.map (fun f => (f.second.map (fun s => s.directions.length)).sum)).sum := by
  induction ds generalizing i c with
  | nil => rfl
  | cons d ds ih =>
    simp only [stampFirst, List.flatMap_cons, stampSecond_ids, ih, List.map_cons, List.sum_cons]
    rw [List.range'_append_1]

theorem stampFirst_length (cart : D → V) (cutoff : Option K) (i c : Nat)
    (ds : List (DirFirst D K)) : (stampFirst cart cutoff i c ds).length = ds.length := by
  have := congrArg List.length (stampFirst_ids cart cutoff i c ds)
  simpa using this

theorem directionToDisplacement_eq [AddGroup D] [DecidableEq D] {cart : D → V} {natom : Nat}
    {cutoff : Option K} {dirs : List (DirFirst D K)} {ds : DispDataset V K}
    (h : directionToDisplacement cart natom cutoff dirs = some ds) :
    ds.natom = natom ∧ ds.cutoff = cutoff ∧ findDuplicates dirs = some ds.duplicates ∧
      ds.first = stampFirst cart cutoff 0 (dirs.length + 1) dirs := by
  unfold directionToDisplacement at h
  cases hd : findDuplicates dirs with
  | none => simp [hd] at h
  | some l =>
    simp only [hd, Option.map_some, Option.some.injEq] at h
    subst h
    exact ⟨rfl, rfl, rfl, rfl⟩

/-- **C48**. Ids of displaced supercells run from 1 without gaps, the single displacements
first. -/
theorem C48_ids [AddGroup D] [DecidableEq D] {cart : D → V} {natom : Nat} {cutoff : Option K}
    {dirs : List (DirFirst D K)} {ds : DispDataset V K}
    (h : directionToDisplacement cart natom cutoff dirs = some ds) :
    (displacedCells ds).map (fun e => e.id) = List.range' 1 (displacedCells ds).length ∧
      ds.first.map (fun d => d.id) = List.range' 1 dirs.length ∧
      (displacedCells ds).length = dirs.length +
        (dirs.map (fun f => (f.second.map (fun s => s.directions.length)).sum)).sum := by
  obtain ⟨-, -, -, hf⟩ := directionToDisplacement_eq h
  have key : (displacedCells ds).map (fun e => e.id) = List.range' 1 (dirs.length +
        (dirs.map (fun f => (f.second.map (fun s => s.directions.length)).sum)).sum) := by
    rw [displacedCells, List.map_append, List.map_map, hf, List.map_flatMap]
    have h1 := stampFirst_ids cart cutoff 0 (dirs.length + 1) dirs
    have h2 := stampFirst_pair_ids cart cutoff 0 (dirs.length + 1) dirs
    rw [← List.range'_append_1]
    congr 1
    rw [Nat.add_comm 1, ← h2]
    congr 1
    funext d
    simp
  have hl : (displacedCells ds).length = dirs.length +
        (dirs.map (fun f => (f.second.map (fun s => s.directions.length)).sum)).sum := by
    simpa using congrArg List.length key
  refine ⟨by rw [key, hl], ?_, hl⟩
  rw [hf]
  exact stampFirst_ids ..

theorem stampFirst_map (cart : D → V) (cutoff : Option K) (i c : Nat) (ds : List (DirFirst D K))
    {α : Type} (g : Nat → V → α) :
    (stampFirst cart cutoff i c ds).map (fun d => g d.number d.displacement) =
      ds.map (fun f => g f.number (cart f.direction)) := by
  induction ds generalizing i c with
  | nil => rfl
  | cons d ds ih => simp [stampFirst, ih]

theorem stampFirst_pair_map (cart : D → V) (cutoff : Option K) (i c : Nat)
    (ds : List (DirFirst D K)) {α : Type} (g : Nat → V → Nat → V → Option Bool → α) :
    ((stampFirst cart cutoff i c ds).flatMap (fun d1 => d1.second.map (fun d2 =>
        g d1.number d1.displacement d2.number d2.displacement d2.included))) =
      ds.flatMap (fun f => f.second.flatMap (fun s => s.directions.map (fun d =>
        g f.number (cart f.direction) s.number (cart d)
          (cutoff.map (fun r => decide (s.distance < r)))))) := by
  induction ds generalizing i c with
  | nil => rfl
  | cons d ds ih => simp only [stampFirst, List.flatMap_cons, stampSecond_map, ih]

/-- **C48**. Every requested displacement is present, in order, with the displacement asked for,
and it is marked included exactly when the pair distance is below the cutoff. -/
theorem C48_requested [AddGroup D] [DecidableEq D] {cart : D → V} {natom : Nat}
    {cutoff : Option K} {dirs : List (DirFirst D K)} {ds : DispDataset V K}
    (h : directionToDisplacement cart natom cutoff dirs = some ds) :
    (displacedCells ds).map (fun e => (e.field, e.included = true)) =
      requestedCells cart cutoff dirs := by
  obtain ⟨-, -, -, hf⟩ := directionToDisplacement_eq h
  unfold displacedCells requestedCells
  rw [List.map_append, List.map_map, List.map_flatMap, hf]
  congr 1
  · have := stampFirst_map cart cutoff 0 (dirs.length + 1) dirs
      (fun n v => ((oneAtom n v : Nat → V), True))
    simpa [Function.comp_def] using this
  · have := stampFirst_pair_map cart cutoff 0 (dirs.length + 1) dirs
      (fun n v m w inc => ((fun k => oneAtom n v k + oneAtom m w k : Nat → V),
        inc.getD true = true))
    simp only [List.map_map, Function.comp_def]
    rw [this]
    congr 1; funext f; congr 1; funext s; congr 1; funext d
    cases cutoff <;> simp

end Ids

section Cells
variable {V K : Type} [AddMonoid V]

theorem moveAtom_one (pos : Nat → V) (n : Nat) (d : V) (k : Nat) :
    moveAtom pos n d k = pos k + oneAtom n d k := by
  unfold moveAtom oneAtom
  split <;> simp

/-- **C48**. One supercell per displacement, in the order of the ids; it has the positions of the
perfect supercell plus the displacements, and a pair that is not included has no supercell. -/
theorem C48_supercells (pos : Nat → V) (ds : DispDataset V K) :
    buildSupercells pos ds = (displacedCells ds).map (fun e =>
      if e.included then some (fun k => pos k + e.field k) else none) := by
  unfold buildSupercells displacedCells buildFirst
  rw [List.map_append, List.map_map, List.map_map, List.map_flatMap]
  congr 1
  · apply List.map_congr_left
    intro d _
    simp only [Function.comp_apply, if_true]
    congr 1
    funext k
    exact moveAtom_one ..
  · congr 1
    funext d
    rw [List.map_map]
    apply List.map_congr_left
    intro e _
    simp only [Function.comp_apply]
    split
    · congr 1
      funext k
      rw [moveAtom_one, moveAtom_one, add_assoc]
    · rfl

theorem zipIdx_ids {α β : Type} (f : α → Option β) (id : α → Nat) (l : List α) (s : Nat)
    (h : l.map id = List.range' (s + 1) l.length) :
    ((l.map f).zipIdx s).filterMap (fun p => p.1.map (fun c => (p.2 + 1, c))) =
      l.filterMap (fun a => (f a).map (fun c => (id a, c))) := by
  induction l generalizing s with
  | nil => rfl
  | cons a l ih =>
    simp only [List.map_cons, List.length_cons, List.range'_succ, List.cons.injEq] at h
    simp only [List.map_cons, List.zipIdx_cons, List.filterMap_cons]
    rw [ih (s + 1) h.2, h.1]

/-- **C48**. The supercell files: one for each included displacement, numbered with its id. -/
theorem C48_files {D : Type} [AddGroup D] [DecidableEq D] [LT K] [DecidableLT K] {cart : D → V}
    {natom : Nat} {cutoff : Option K} {dirs : List (DirFirst D K)} {ds : DispDataset V K}
    (h : directionToDisplacement cart natom cutoff dirs = some ds) (pos : Nat → V) :
    supercellFiles (buildSupercells pos ds) =
      ((displacedCells ds).filter (fun e => e.included)).map
        (fun e => (e.id, fun k => pos k + e.field k)) := by
  rw [C48_supercells]
  unfold supercellFiles
  rw [zipIdx_ids _ (fun e => e.id) _ 0 (C48_ids h).1]
  generalize displacedCells ds = l
  induction l with
  | nil => rfl
  | cons e l ih =>
    cases hi : e.included <;> simp [List.filterMap_cons, hi] <;> simpa using ih

end Cells

section Arrays
variable {V K : Type} [AddMonoid V]

theorem setAtom_zero (n : Nat) (d : V) : setAtom (fun _ => (0 : V)) n d = oneAtom n d := rfl

theorem setAtom_pair {n m : Nat} (h : n ≠ m) (d e : V) (k : Nat) :
    setAtom (setAtom (fun _ => (0 : V)) n d) m e k = oneAtom n d k + oneAtom m e k := by
  unfold setAtom oneAtom
  by_cases h1 : k = m
  · subst h1; simp [Ne.symm h]
  · simp [h1]

theorem allRows_eq (ds : DispDataset V K) (h : DistinctPairs ds) :
    allRows ds = (displacedCells ds).map (fun e => (e.included, e.field, e.forces)) := by
  unfold allRows pairRows displacedCells
  rw [List.map_append, List.map_map, List.map_flatMap]
  congr 1
  simp only [List.flatMap]
  congr 1
  apply List.map_congr_left
  intro d hd
  rw [List.map_map]
  apply List.map_congr_left
  intro e he
  simp only [Function.comp_apply]
  congr 2
  funext k
  exact setAtom_pair (h d hd e he) ..

/-- **C49**. For a dataset without pairs on one atom: if every displacement has forces, the
arrays have one row per included displaced supercell, in the order of the ids, each holding the
displacements applied to that supercell and its forces. -/
theorem C49_rows_partial (ds : DispDataset V K) (h : DistinctPairs ds)
    (hf : ∀ e ∈ displacedCells ds, e.forces ≠ none) (hne : ds.first ≠ []) :
    ∃ fs, displacementsAndForces ds =
        some (((displacedCells ds).filter (fun e => e.included)).map (fun e => e.field), some fs) ∧
      fs.map some = ((displacedCells ds).filter (fun e => e.included)).map (fun e => e.forces) := by
  have hall : ((allRows ds).filter (fun r => r.2.2.isSome)) = allRows ds := by
    rw [List.filter_eq_self, allRows_eq ds h]
    intro r hr
    obtain ⟨e, he, rfl⟩ := List.mem_map.1 hr
    exact Option.isSome_iff_ne_none.2 (hf e he)
  have hpos : (allRows ds).length ≠ 0 := by
    unfold allRows
    rw [List.length_append, List.length_map]
    have : ds.first.length ≠ 0 := by simpa using hne
    omega
  have hd : displacementsAndForces ds = some
      (((allRows ds).filter (fun r => r.1)).map (fun r => r.2.1),
        some (((allRows ds).filter (fun r => r.1)).map
          (fun r => r.2.2.getD (List.replicate ds.natom 0)))) := by
    unfold displacementsAndForces
    simp only [hall]
    rw [if_neg hpos, if_true]
  rw [hd, allRows_eq ds h, List.filter_map, List.map_map, List.map_map]
  refine ⟨_, rfl, ?_⟩
  rw [List.map_map]
  apply List.map_congr_left
  intro e he
  have := hf e (List.mem_filter.1 he).1
  simp only [Function.comp_apply]
  cases hfe : e.forces with
  | none => exact absurd hfe this
  | some f => rfl

/-- **C49**. Without any forces the displacements alone are returned. -/
theorem C49_no_forces_partial (ds : DispDataset V K) (h : DistinctPairs ds)
    (hf : ∀ e ∈ displacedCells ds, e.forces = none) :
    displacementsAndForces ds =
      some (((displacedCells ds).filter (fun e => e.included)).map (fun e => e.field), none) := by
  have hall : ((allRows ds).filter (fun r => r.2.2.isSome)) = [] := by
    rw [List.filter_eq_nil_iff, allRows_eq ds h]
    intro r hr
    obtain ⟨e, he, rfl⟩ := List.mem_map.1 hr
    simp [hf e he]
  unfold displacementsAndForces
  simp only [hall, List.length_nil, if_true]
  rw [allRows_eq ds h, List.filter_map, List.map_map]
  rfl

/-- **C49**, what fails. If some but not all displacements have forces, nothing is returned: the
assertion on the count fails, even when the displacements without forces are exactly the excluded
pairs. -/
theorem C49_some_forces (ds : DispDataset V K) (h : DistinctPairs ds)
    (h1 : ∃ e ∈ displacedCells ds, e.forces ≠ none)
    (h2 : ∃ e ∈ displacedCells ds, e.forces = none) : displacementsAndForces ds = none := by
  unfold displacementsAndForces
  have e1 : ((allRows ds).filter (fun r => r.2.2.isSome)).length ≠ 0 := by
    rw [allRows_eq ds h]
    obtain ⟨e, he, hn⟩ := h1
    intro h0
    have := List.filter_eq_nil_iff.1 (List.length_eq_zero_iff.1 h0) _ (List.mem_map_of_mem he)
    exact this (Option.isSome_iff_ne_none.2 hn)
  have e2 : ((allRows ds).filter (fun r => r.2.2.isSome)).length ≠ (allRows ds).length := by
    rw [allRows_eq ds h]
    obtain ⟨e, he, hn⟩ := h2
    intro h0
    have := (List.length_filter_eq_length_iff.1 h0) _ (List.mem_map_of_mem he)
    simp [hn] at this
  simp only [if_neg e1, if_neg e2]

/-- **C49**, what fails. In the array the pair on one atom appears with the second displacement
only, while the supercell is displaced by the sum. -/
theorem C49_same_atom :
    ∃ ds : DispDataset ℚ ℚ, ∃ rows fs,
      displacementsAndForces ds = some (rows, some fs) ∧
      (∀ e ∈ displacedCells ds, e.included = true ∧ e.forces = some [1]) ∧
      ∃ r e : Nat → ℚ, rows[1]? = some r ∧ ((displacedCells ds)[1]?.map (fun e => e.field)) = some e ∧
        (buildSupercells (fun _ => 0) ds)[1]? = some (some e) ∧ r 0 = 2 ∧ e 0 = 3 := by
  refine ⟨⟨1, [], none, [⟨1, 0, 1, some [1], none, [⟨2, 0, 2, 0, none, some [1], none⟩]⟩]⟩, _, _,
    rfl, ?_, _, _, rfl, rfl, ?_, ?_, ?_⟩
  · intro e he
    simp only [displacedCells, List.map_cons, List.map_nil, List.flatMap_cons, List.flatMap_nil,
      List.cons_append, List.nil_append, List.append_nil, List.mem_cons, List.not_mem_nil,
      or_false] at he
    rcases he with rfl | rfl <;> exact ⟨rfl, rfl⟩
  · simp only [buildSupercells, buildFirst, List.map_cons, List.map_nil, List.flatMap_cons,
      List.flatMap_nil, List.append_nil, Option.getD_none, if_true, List.cons_append,
      List.nil_append, List.getElem?_cons_succ, List.getElem?_cons_zero, Option.some.injEq]
    funext k
    rw [moveAtom_one, moveAtom_one, add_assoc, zero_add]
  · rfl
  · show oneAtom 0 (1 : ℚ) 0 + oneAtom 0 (2 : ℚ) 0 = 3
    norm_num [oneAtom]

/-- **C49**. The getter of displacements has one row per displaced supercell, included or not; for
single displacements the row is the displacement applied. -/
theorem C49_getter_partial (ds : DispDataset V K) :
    (displacementsGetter ds).length = (displacedCells ds).length ∧
      (displacementsGetter ds).take ds.first.length =
        ((displacedCells ds).map (fun e => e.field)).take ds.first.length := by
  constructor
  · simp [displacementsGetter, displacedCells, List.length_flatMap]
  · unfold displacementsGetter displacedCells
    rw [List.take_left' (by simp), List.map_append, List.map_map, List.take_left' (by simp)]
    rfl

/-- **C49**, what fails. In the getter of displacements the row of a pair lacks the first
displacement: whenever a pair displaces its first atom by a non-zero vector and its second atom is
another one, the row shows that atom not displaced. -/
theorem C49_getter_drops_first (ds : DispDataset V K) (d1 : Disp1 V K) (d2 : Disp2 V K)
    (h1 : d1 ∈ ds.first) (h2 : d2 ∈ d1.second) (hn : d1.number ≠ d2.number)
    (hd : d1.displacement ≠ 0) :
    ∃ (i : Nat) (row : Nat → V) (e : Displaced V), (displacementsGetter ds)[i]? = some row ∧
      (displacedCells ds)[i]? = some e ∧ row d1.number = 0 ∧ e.field d1.number ≠ 0 := by
  obtain ⟨as, bs, hab⟩ := List.append_of_mem h1
  obtain ⟨cs, es, hce⟩ := List.append_of_mem h2
  refine ⟨ds.first.length + ((as.flatMap (fun d => d.second)).length + cs.length),
    setAtom (fun _ => 0) d2.number d2.displacement,
    ⟨d2.id, d2.included.getD true,
        fun k => oneAtom d1.number d1.displacement k + oneAtom d2.number d2.displacement k,
        d2.forces⟩, ?_, ?_, ?_, ?_⟩
  · unfold displacementsGetter
    rw [List.getElem?_append_right (by simp), List.length_map, Nat.add_sub_cancel_left, hab,
      List.flatMap_append, List.getElem?_append_right (by simp [List.length_flatMap]),
      List.flatMap_cons, List.length_flatMap, List.length_flatMap, hce]
    simp only [List.length_map, Nat.add_sub_cancel_left, List.map_append, List.map_cons]
    rw [List.getElem?_append_left (by simp), List.getElem?_append_right (by simp)]
    simp
  · unfold displacedCells
    rw [List.getElem?_append_right (by simp), List.length_map, Nat.add_sub_cancel_left, hab,
      List.flatMap_append, List.getElem?_append_right (by simp [List.length_flatMap]),
      List.flatMap_cons, List.length_flatMap, List.length_flatMap, hce]
    simp only [List.length_map, Nat.add_sub_cancel_left, List.map_append, List.map_cons]
    rw [List.getElem?_append_left (by simp), List.getElem?_append_right (by simp)]
    simp
  · simp [setAtom, hn]
  · simpa [oneAtom, hn] using hd

end Arrays

section Assign
variable {V K : Type}

/-- Cell of a single displacement. -/
def firstCell [AddMonoid V] (d1 : Disp1 V K) : Displaced V :=
  ⟨d1.id, true, oneAtom d1.number d1.displacement, d1.forces⟩

/-- Cell of a pair. -/
def pairCell [AddMonoid V] (d1 : Disp1 V K) (d2 : Disp2 V K) : Displaced V :=
  ⟨d2.id, d2.included.getD true,
    fun k => oneAtom d1.number d1.displacement k + oneAtom d2.number d2.displacement k, d2.forces⟩

/-- Cells of all pairs. -/
def pairCells [AddMonoid V] (l : List (Disp1 V K)) : List (Displaced V) :=
  l.flatMap (fun d1 => d1.second.map (pairCell d1))

theorem displacedCells_eq [AddMonoid V] (ds : DispDataset V K) :
    displacedCells ds = ds.first.map firstCell ++ pairCells ds.first := rfl

/-- Store forces in a cell. -/
def withForces (e : Displaced V) (v : List V) : Displaced V := { e with forces := some v }

theorem setFirst_spec [AddMonoid V] (ds : List (Disp1 V K)) (vs : List (List V)) :
    (ds.length ≤ vs.length → ∃ ds', setFirstForces ds vs = some (ds', vs.drop ds.length) ∧
      ds'.map firstCell = List.zipWith withForces (ds.map firstCell) vs ∧
      pairCells ds' = pairCells ds) ∧
    (vs.length < ds.length → setFirstForces ds vs = none) := by
  induction ds generalizing vs with
  | nil => simp [setFirstForces, pairCells]
  | cons d ds ih =>
    cases vs with
    | nil => simp [setFirstForces]
    | cons v vs =>
      constructor
      · intro h
        obtain ⟨ds', e, h1, h2⟩ := (ih vs).1 (by simpa using h)
        refine ⟨{ d with forces := some v } :: ds', by simp [setFirstForces, e], ?_, ?_⟩
        · simp [h1, firstCell, withForces]
        · unfold pairCells at h2 ⊢
          rw [List.flatMap_cons, List.flatMap_cons, h2]
          rfl
      · intro h
        simp [setFirstForces, (ih vs).2 (by simpa using h)]

theorem setSecond_spec [AddMonoid V] (d1 : Disp1 V K) (ds : List (Disp2 V K))
    (vs : List (List V)) :
    (ds.length ≤ vs.length → ∃ ds', setSecondForces ds vs = some (ds', vs.drop ds.length) ∧
      ds'.map (pairCell d1) = List.zipWith withForces (ds.map (pairCell d1)) vs) ∧
    (vs.length < ds.length → setSecondForces ds vs = none) := by
  induction ds generalizing vs with
  | nil => simp [setSecondForces]
  | cons d ds ih =>
    cases vs with
    | nil => simp [setSecondForces]
    | cons v vs =>
      constructor
      · intro h
        obtain ⟨ds', e, h1⟩ := (ih vs).1 (by simpa using h)
        exact ⟨{ d with forces := some v } :: ds', by simp [setSecondForces, e],
          by simp [h1, pairCell, withForces]⟩
      · intro h
        simp [setSecondForces, (ih vs).2 (by simpa using h)]

theorem zipWith_append_left {α β γ : Type} (f : α → β → γ) (a b : List α) (c : List β)
    (h : a.length ≤ c.length) :
    List.zipWith f (a ++ b) c = List.zipWith f a c ++ List.zipWith f b (c.drop a.length) := by
  induction a generalizing c with
  | nil => simp
  | cons x a ih =>
    cases c with
    | nil => simp at h
    | cons y c => simp [ih c (by simpa using h)]

theorem setPair_spec [AddMonoid V] (ds : List (Disp1 V K)) (vs : List (List V)) :
    ((pairCells ds).length ≤ vs.length →
      ∃ ds', setPairForces ds vs = some (ds', vs.drop (pairCells ds).length) ∧
      ds'.map firstCell = ds.map firstCell ∧
      pairCells ds' = List.zipWith withForces (pairCells ds) vs) ∧
    (vs.length < (pairCells ds).length → setPairForces ds vs = none) := by
  induction ds generalizing vs with
  | nil => simp [setPairForces, pairCells]
  | cons d ds ih =>
    have hl : (pairCells (d :: ds)).length = d.second.length + (pairCells ds).length := by
      simp [pairCells]
    have hc : pairCells (d :: ds) = d.second.map (pairCell d) ++ pairCells ds := by
      simp [pairCells]
    constructor
    · intro h
      rw [hl] at h
      obtain ⟨s', e1, h1⟩ := (setSecond_spec d d.second vs).1 (by omega)
      obtain ⟨ds', e2, h2, h3⟩ := (ih (vs.drop d.second.length)).1 (by
        rw [List.length_drop]; omega)
      refine ⟨{ d with second := s' } :: ds', ?_, ?_, ?_⟩
      · simp only [setPairForces, e1, Option.bind_some, e2, Option.map_some, List.drop_drop, hl]
      · simp [h2, firstCell]
      · have : pairCells ({ d with second := s' } :: ds') =
            s'.map (pairCell d) ++ pairCells ds' := by
          unfold pairCells
          rw [List.flatMap_cons]
          rfl
        rw [this, h1, h3, hc, zipWith_append_left _ _ _ _ (by rw [List.length_map]; omega),
          List.length_map]
    · intro h
      rw [hl] at h
      by_cases h1 : vs.length < d.second.length
      · simp [setPairForces, (setSecond_spec d d.second vs).2 h1]
      · obtain ⟨s', e1, -⟩ := (setSecond_spec d d.second vs).1 (by omega)
        simp only [setPairForces, e1, Option.bind_some]
        rw [(ih (vs.drop d.second.length)).2 (by rw [List.length_drop]; omega)]
        rfl

/-- **C50**. Assigning forces succeeds exactly when there are at least as many arrays as displaced
supercells, and then gives the arrays to the supercells in the order of their ids. -/
theorem C50_assign_partial [AddMonoid V] (ds : DispDataset V K) (vs : List (List V)) :
    ((displacedCells ds).length ≤ vs.length →
      ∃ ds', setForces ds vs = some ds' ∧ ds'.natom = ds.natom ∧
        displacedCells ds' = List.zipWith withForces (displacedCells ds) vs) ∧
    (vs.length < (displacedCells ds).length → setForces ds vs = none) := by
  have hl : (displacedCells ds).length = ds.first.length + (pairCells ds.first).length := by
    rw [displacedCells_eq]; simp
  constructor
  · intro h
    obtain ⟨a, e1, h1, h2⟩ := (setFirst_spec ds.first vs).1 (by omega)
    obtain ⟨b, e2, h3, h4⟩ := (setPair_spec a (vs.drop ds.first.length)).1 (by
      rw [h2, List.length_drop]; omega)
    refine ⟨{ ds with first := b }, by simp [setForces, e1, e2], rfl, ?_⟩
    rw [displacedCells_eq, displacedCells_eq, h3, h1, h4, h2,
      zipWith_append_left _ _ _ _ (by rw [List.length_map]; omega), List.length_map]
  · intro h
    by_cases h1 : vs.length < ds.first.length
    · simp [setForces, (setFirst_spec ds.first vs).2 h1]
    · obtain ⟨a, e1, h1, h2⟩ := (setFirst_spec ds.first vs).1 (by omega)
      simp only [setForces, e1, Option.bind_some]
      rw [(setPair_spec a (vs.drop ds.first.length)).2 (by rw [h2, List.length_drop]; omega)]
      rfl

theorem storedForces_eq [AddMonoid V] (ds : DispDataset V K) :
    storedForces ds = (displacedCells ds).map (fun e => e.forces) := by
  unfold storedForces displacedCells
  simp [List.map_flatMap, Function.comp_def]

theorem gatherForces_some (natom : Nat) (vs : List (List V)) (h : ∀ v ∈ vs, v.length = natom) :
    gatherForces natom (vs.map some) = some vs := by
  induction vs with
  | nil => rfl
  | cons v vs ih =>
    simp only [List.map_cons, gatherForces, Option.bind_some]
    rw [if_pos (h v (by simp)), ih (fun w hw => h w (by simp [hw]))]
    rfl

theorem zipWith_forces (es : List (Displaced V)) (vs : List (List V))
    (h : es.length = vs.length) :
    (List.zipWith withForces es vs).map (fun e => e.forces) = vs.map some := by
  induction es generalizing vs with
  | nil => cases vs <;> simp_all
  | cons e es ih =>
    cases vs with
    | nil => simp at h
    | cons v vs => simp [withForces, ih vs (by simpa using h)]

theorem zipWith_same {α : Type} (g : Displaced V → α) (hg : ∀ e v, g (withForces e v) = g e)
    (es : List (Displaced V)) (vs : List (List V)) (h : es.length ≤ vs.length) :
    (List.zipWith withForces es vs).map g = es.map g := by
  induction es generalizing vs with
  | nil => simp
  | cons e es ih =>
    cases vs with
    | nil => simp at h
    | cons v vs => simp [hg, ih vs (by simpa using h)]

/-- **C50**. Forces assigned to a type-1 dataset, one array per displaced supercell, are read back
unchanged. -/
theorem C50_round_trip [AddMonoid V] (ds : DispDataset V K) (natom : Nat) (vs : List (List V))
    (hne : ds.first ≠ []) (hlen : vs.length = (displacedCells ds).length)
    (hv : ∀ v ∈ vs, v.length = natom) :
    ∃ ds', setForces ds vs = some ds' ∧ getForces natom ds' = some (some vs) ∧
      (displacedCells ds').map (fun e => (e.id, e.included, e.field)) =
        (displacedCells ds).map (fun e => (e.id, e.included, e.field)) := by
  obtain ⟨ds', e1, -, h1⟩ := (C50_assign_partial ds vs).1 (by omega)
  refine ⟨ds', e1, ?_, ?_⟩
  · have hs : storedForces ds' = vs.map some := by
      rw [storedForces_eq, h1, zipWith_forces _ _ hlen.symm]
    unfold getForces
    have hf : ds'.first ≠ [] := by
      intro h0
      have : displacedCells ds' = [] := by rw [displacedCells_eq, h0]; rfl
      rw [this] at h1
      have h2 := congrArg List.length h1
      rw [List.length_zipWith, hlen, Nat.min_self, displacedCells_eq] at h2
      simp only [List.length_nil, List.length_append, List.length_map] at h2
      exact hne (List.length_eq_zero_iff.1 (by omega))
    cases hd : ds'.first with
    | nil => exact absurd hd hf
    | cons d l =>
      have : ∃ v, d.forces = some v := by
        unfold storedForces at hs
        rw [hd] at hs
        cases vs with
        | nil => simp at hs
        | cons v vs =>
          simp only [List.map_cons, List.cons_append, List.cons.injEq] at hs
          exact ⟨v, hs.1⟩
      obtain ⟨v, hv'⟩ := this
      simp only [hv', hs, gatherForces_some natom vs hv, Option.map_some]
  · rw [h1]
    exact zipWith_same _ (fun _ _ => rfl) _ _ (by omega)

theorem setFirst_frame (ds : List (Disp1 V K)) (vs ws : List (List V)) (h : ds.length ≤ vs.length) :
    setFirstForces ds (vs ++ ws) = (setFirstForces ds vs).map (fun r => (r.1, r.2 ++ ws)) := by
  induction ds generalizing vs with
  | nil => rfl
  | cons d ds ih =>
    cases vs with
    | nil => simp at h
    | cons v vs =>
      simp only [List.cons_append, setFirstForces, ih vs (by simpa using h), Option.map_map]
      rfl

theorem setSecond_frame (ds : List (Disp2 V K)) (vs ws : List (List V))
    (h : ds.length ≤ vs.length) :
    setSecondForces ds (vs ++ ws) = (setSecondForces ds vs).map (fun r => (r.1, r.2 ++ ws)) := by
  induction ds generalizing vs with
  | nil => rfl
  | cons d ds ih =>
    cases vs with
    | nil => simp at h
    | cons v vs =>
      simp only [List.cons_append, setSecondForces, ih vs (by simpa using h), Option.map_map]
      rfl

theorem setPair_frame [AddMonoid V] (ds : List (Disp1 V K)) (vs ws : List (List V))
    (h : (pairCells ds).length ≤ vs.length) :
    setPairForces ds (vs ++ ws) = (setPairForces ds vs).map (fun r => (r.1, r.2 ++ ws)) := by
  induction ds generalizing vs with
  | nil => rfl
  | cons d ds ih =>
    have hl : (pairCells (d :: ds)).length = d.second.length + (pairCells ds).length := by
      simp [pairCells]
    rw [hl] at h
    obtain ⟨s', e1, -⟩ := (setSecond_spec d d.second vs).1 (by omega)
    simp only [setPairForces]
    rw [setSecond_frame _ _ _ (by omega), e1]
    simp only [Option.map_some, Option.bind_some]
    rw [ih _ (by rw [List.length_drop]; omega)]
    simp only [Option.map_map]
    rfl

/-- **C50**, what fails. Too many arrays are not rejected: the extra ones are dropped. -/
theorem C50_extra_ignored [AddMonoid V] (ds : DispDataset V K) (vs ws : List (List V))
    (h : (displacedCells ds).length ≤ vs.length) :
    setForces ds (vs ++ ws) = setForces ds vs ∧ (setForces ds vs).isSome := by
  have hl : (displacedCells ds).length = ds.first.length + (pairCells ds.first).length := by
    rw [displacedCells_eq]; simp
  obtain ⟨ds', e, -⟩ := (C50_assign_partial ds vs).1 h
  refine ⟨?_, by rw [e]; rfl⟩
  unfold setForces
  obtain ⟨a, e1, h1, h2⟩ := (setFirst_spec ds.first vs).1 (by omega)
  rw [setFirst_frame _ _ _ (by omega), e1]
  simp only [Option.map_some, Option.bind_some]
  rw [setPair_frame _ _ _ (by rw [h2, List.length_drop]; omega), Option.map_map]
  rfl

/-- **C50**. Too few arrays are rejected. -/
theorem C50_too_few [AddMonoid V] (ds : DispDataset V K) (vs : List (List V))
    (h : vs.length < (displacedCells ds).length) : setForces ds vs = none :=
  (C50_assign_partial ds vs).2 h

/-- **C50**. The forces of the fc2 dataset, one array per displacement, are read back unchanged. -/
theorem C50_phonon_round_trip (ds : DispDataset V K) (vs : List (List V))
    (hlen : vs.length = ds.first.length) (hne : vs ≠ []) :
    getPhononForces (setPhononForces ds vs) = some vs := by
  unfold getPhononForces setPhononForces
  have : (((ds.first.zip vs).map (fun p : Disp1 V K × List V => { p.1 with forces := some p.2 }) ++
      ds.first.drop vs.length).filterMap (fun d : Disp1 V K => d.forces)) = vs := by
    rw [hlen, List.drop_length, List.append_nil, List.filterMap_map]
    clear hne
    generalize ds.first = l at hlen
    induction l generalizing vs with
    | nil => cases vs <;> simp_all
    | cons d l ih =>
      cases vs with
      | nil => simp at hlen
      | cons v vs =>
        have := ih vs (by simpa using hlen)
        simp only [Function.comp_def] at this ⊢
        simp [this]
  simp only [this]
  rw [if_neg hne]

/-- **C50**, what fails. For the fc2 dataset neither too few nor too many arrays are rejected: with
too few the remaining displacements silently keep the forces they had, so that arrays of two
assignments are mixed, or have none. -/
theorem C50_phonon_short (ds : DispDataset V K) (vs : List (List V)) :
    (∀ i, i < vs.length → ∀ d, ds.first[i]? = some d →
      ∃ d', (setPhononForces ds vs).first[i]? = some d' ∧ d'.forces = vs[i]?) ∧
    (∀ i, vs.length ≤ i → (setPhononForces ds vs).first[i]? = ds.first[i]?) := by
  unfold setPhononForces
  constructor
  · intro i hi d hd
    obtain ⟨hlt, rfl⟩ := List.getElem?_eq_some_iff.1 hd
    refine ⟨{ ds.first[i] with forces := some vs[i] }, ?_, ?_⟩
    · rw [List.getElem?_append_left (by simp; omega)]
      simp [List.getElem?_eq_getElem, hi, hlt, List.getElem?_zip_eq_some]
    · simp [List.getElem?_eq_getElem hi]
  · intro i hi
    by_cases hl : i < ds.first.length
    · rw [List.getElem?_append_right (by simp; omega)]
      simp only [List.length_map, List.length_zip, List.getElem?_drop]
      congr 1
      omega
    · rw [List.getElem?_eq_none (l := ds.first) (by omega)]
      apply List.getElem?_eq_none
      simp only [List.length_append, List.length_map, List.length_zip, List.length_drop]
      omega

/-- **C50**, type-2 datasets. Forces assigned are read back; those of the fc2 dataset are accepted
exactly when there is one array per displaced supercell with one row per atom. -/
theorem C50_type2 (ds : DispDataset2 V K) (disps : List (List V)) (natom : Nat)
    (hd : ds.displacements = some disps) (vs : List (List V)) :
    (∃ ds', setForces2 ds vs = some ds' ∧ getForces2 ds' = some vs ∧
      ds'.displacements = some disps) ∧
    ((∃ ds', setPhononForces2 natom ds vs = some ds') ↔
      vs.length = disps.length ∧ ∀ v ∈ vs, v.length = natom) ∧
    (∀ ds', setPhononForces2 natom ds vs = some ds' → ds'.forces = some vs) := by
  refine ⟨⟨{ ds with forces := some vs }, by simp [setForces2, hd], rfl, hd⟩, ?_, ?_⟩
  · simp only [setPhononForces2, hd]
    split <;> simp_all
  · intro ds' h
    simp only [setPhononForces2, hd] at h
    split at h
    · rw [← Option.some.inj h]
    · cases h

/-- **C50**, what fails. On a type-2 dataset any number of force arrays is accepted for fc3, and
energies assigned before the forces are not returned. -/
theorem C50_type2_unchecked (disps vs : List (List V)) (es : List K) :
    (∃ ds', setForces2 (⟨some disps, none, none⟩ : DispDataset2 V K) vs = some ds') ∧
    (∃ ds', setEnergies2 (⟨some disps, none, none⟩ : DispDataset2 V K) es = some ds' ∧
      getEnergies2 ds' = none) :=
  ⟨⟨_, rfl⟩, ⟨_, rfl, rfl⟩⟩

end Assign

section Files
variable {V K : Type}

theorem forceRows_append (a b : List (ForceLine V)) :
    forceRows (a ++ b) = forceRows a ++ forceRows b := List.filterMap_append ..

theorem forceRows_rows (fs : List V) (g : V → V) :
    forceRows (fs.map (fun f => ForceLine.row (g f))) = fs.map g := by
  induction fs with
  | nil => rfl
  | cons f fs ih =>
    have : forceRows ((f :: fs).map (fun f => ForceLine.row (g f))) =
      g f :: forceRows (fs.map (fun f => ForceLine.row (g f))) := rfl
    rw [this, ih]
    rfl

theorem forceRows_replicate (n : Nat) (v : V) :
    forceRows (List.replicate n (ForceLine.row v)) = List.replicate n v := by
  induction n with
  | zero => rfl
  | succ n ih =>
    rw [List.replicate_succ, List.replicate_succ, ← ih]
    rfl

theorem parseForceLines_spec (natom : Nat) (acc : List V) (ls : List (ForceLine V))
    (ha : acc.length < natom) :
    (natom ≤ acc.length + (forceRows ls).length →
      (parseForceLines natom acc ls).1 = some (acc ++ (forceRows ls).take (natom - acc.length)) ∧
      forceRows (parseForceLines natom acc ls).2 = (forceRows ls).drop (natom - acc.length)) ∧
    (acc.length + (forceRows ls).length < natom → (parseForceLines natom acc ls).1 = none) := by
  induction ls generalizing acc with
  | nil =>
    have h0 : forceRows ([] : List (ForceLine V)) = [] := rfl
    rw [h0]
    refine ⟨fun h => by simp at h; omega, fun _ => ?_⟩
    simp only [parseForceLines]
    rw [if_neg (by omega)]
  | cons l ls ih =>
    cases l with
    | row f =>
      have h0 : forceRows (ForceLine.row f :: ls) = f :: forceRows ls := rfl
      rw [h0]
      simp only [parseForceLines]
      by_cases hf : (acc ++ [f]).length = natom
      · rw [if_pos hf]
        have : natom - acc.length = 1 := by simp at hf; omega
        refine ⟨fun _ => ?_, fun h => ?_⟩
        · simp [this]
        · simp at hf h; omega
      · rw [if_neg hf]
        have hl : (acc ++ [f]).length = acc.length + 1 := by simp
        have := ih (acc ++ [f]) (by omega)
        have hs : natom - acc.length = (natom - (acc ++ [f]).length) + 1 := by omega
        constructor
        · intro h
          have := this.1 (by simp at h ⊢; omega)
          rw [this.1, this.2, hs]
          simp
        · intro h
          exact this.2 (by simp at h ⊢; omega)
    | file n => exact ih acc ha
    | moved a d => exact ih acc ha
    | blank => exact ih acc ha

theorem parseBlocks_some (natom : Nat) (hn : 0 < natom) (bs : List (List V))
    (hb : ∀ b ∈ bs, b.length = natom) (file : List (ForceLine V))
    (hf : ∃ more, forceRows file = bs.flatten ++ more) :
    parseBlocks natom bs.length file = some bs := by
  induction bs generalizing file with
  | nil => rfl
  | cons b bs ih =>
    obtain ⟨more, hf⟩ := hf
    have hbl := hb b (by simp)
    rw [List.flatten_cons, List.append_assoc] at hf
    have := (parseForceLines_spec natom [] file (by simpa using hn)).1 (by rw [hf]; simp [hbl])
    rw [hf] at this
    simp only [List.length_nil, Nat.sub_zero, List.nil_append] at this
    rw [← hbl, List.take_left, List.drop_left] at this
    simp only [List.length_cons, parseBlocks]
    rw [← hbl, this.1]
    simp only [Option.bind_some]
    rw [hbl] at this ⊢
    rw [ih (fun c hc => hb c (by simp [hc])) _ ⟨more, this.2⟩]
    rfl

theorem parseBlocks_none (natom : Nat) (hn : 0 < natom) (n : Nat) (file : List (ForceLine V))
    (h : (forceRows file).length < n * natom) : parseBlocks natom n file = none := by
  induction n generalizing file with
  | zero => simp at h
  | succ n ih =>
    have hs := parseForceLines_spec natom [] file (by simpa using hn)
    simp only [parseBlocks]
    by_cases hc : natom ≤ (forceRows file).length
    · have := hs.1 (by simpa using hc)
      rw [this.1, Option.bind_some, ih _ (by
        rw [this.2, List.length_drop, List.length_nil]
        rw [Nat.succ_mul] at h
        omega)]
      rfl
    · rw [hs.2 (by simp; omega)]
      rfl

/-- Blocks of forces in the order of the displacements: the next given array for an included
displacement, zeros for an excluded one. -/
def fillForces [Zero V] (natom : Nat) : List Bool → List (List V) → List (List V)
  | [], _ => []
  | true :: bs, [] => [] :: fillForces natom bs []
  | true :: bs, g :: gs => g :: fillForces natom bs gs
  | false :: bs, gs => List.replicate natom 0 :: fillForces natom bs gs

theorem fillForces_append [Zero V] (natom : Nat) (as bs : List Bool) (gs : List (List V)) :
    fillForces natom (as ++ bs) gs =
      fillForces natom as gs ++ fillForces natom bs (gs.drop (as.count true)) := by
  induction as generalizing gs with
  | nil => simp [fillForces]
  | cons a as ih =>
    cases a with
    | true =>
      cases gs with
      | nil => simp [fillForces, ih]
      | cons g gs => simp [fillForces, ih]
    | false => simp [fillForces, ih]

theorem fillForces_true [Zero V] (natom n : Nat) (gs : List (List V)) (h : n ≤ gs.length) :
    fillForces natom (List.replicate n true) gs = gs.take n := by
  induction n generalizing gs with
  | zero => rfl
  | succ n ih =>
    cases gs with
    | nil => simp at h
    | cons g gs => simp [List.replicate_succ, fillForces, ih gs (by simpa using h)]

theorem fillForces_length [Zero V] (natom : Nat) (bs : List Bool) (gs : List (List V)) :
    (fillForces natom bs gs).length = bs.length := by
  induction bs generalizing gs with
  | nil => rfl
  | cons b bs ih =>
    cases b with
    | true => cases gs <;> simp [fillForces, ih]
    | false => simp [fillForces, ih]

theorem fillForces_rows [Zero V] (natom : Nat) (bs : List Bool) (gs : List (List V))
    (h : bs.count true ≤ gs.length) (hg : ∀ g ∈ gs, g.length = natom) :
    ∀ b ∈ fillForces natom bs gs, b.length = natom := by
  induction bs generalizing gs with
  | nil => simp [fillForces]
  | cons b bs ih =>
    cases b with
    | true =>
      cases gs with
      | nil => simp at h
      | cons g gs =>
        intro c hc
        simp only [fillForces, List.mem_cons] at hc
        rcases hc with rfl | hc
        · exact hg _ (by simp)
        · exact ih gs (by simpa using h) (fun x hx => hg x (by simp [hx])) c hc
    | false =>
      intro c hc
      simp only [fillForces, List.mem_cons] at hc
      rcases hc with rfl | hc
      · simp
      · exact ih gs (by simpa using h) hg c hc

theorem fc2Lines_given (shown : V → V) (g : List (List V)) (i : Nat) (ds : List (Disp1 V K))
    (h : i + ds.length ≤ g.length) :
    ∃ file, fc2Lines shown (some g) i ds = some file ∧
      forceRows file = (((g.drop i).take ds.length).map (fun b => b.map shown)).flatten := by
  induction ds generalizing i with
  | nil => exact ⟨[], rfl, rfl⟩
  | cons d ds ih =>
    simp only [List.length_cons] at h
    obtain ⟨file, e, hf⟩ := ih (i + 1) (by omega)
    have hg : g[i]? = some g[i] := List.getElem?_eq_getElem (by omega)
    refine ⟨_, by simp only [fc2Lines, e, hg]; rfl, ?_⟩
    have : g.drop i = g[i] :: g.drop (i + 1) := List.drop_eq_getElem_cons (by omega)
    rw [this, List.length_cons, List.take_succ_cons, List.map_cons, List.flatten_cons, ← hf]
    have h2 : ∀ (n a : Nat) (v : V) (ls : List (ForceLine V)),
      forceRows (.file n :: .moved a v :: ls) = forceRows ls := fun _ _ _ _ => rfl
    rw [h2, forceRows_append, forceRows_rows]

theorem fc3Second_given [Zero V] (shown : V → V) (h0 : shown 0 = 0) (g : List (List V))
    (natom : Nat) (d1 : Disp1 V K) (c fc : Nat) (ds : List (Disp2 V K))
    (h : fc + (ds.map (fun d => d.included.getD true)).count true ≤ g.length) :
    ∃ file, fc3SecondLines shown (some g) natom d1 c fc ds =
        some (file, c + ds.length, fc + (ds.map (fun d => d.included.getD true)).count true) ∧
      forceRows file = ((fillForces natom (ds.map (fun d => d.included.getD true))
        (g.drop fc)).map (fun b => b.map shown)).flatten := by
  induction ds generalizing c fc with
  | nil => exact ⟨[], rfl, rfl⟩
  | cons d ds ih =>
    have h2 : ∀ (n a b : Nat) (v w : V) (ls : List (ForceLine V)),
      forceRows ([.file n, .moved a v, .moved b w] ++ ls) = forceRows ls := fun _ _ _ _ _ _ => rfl
    cases hi : d.included.getD true with
    | true =>
      simp only [List.map_cons, hi, List.count_cons_self] at h ⊢
      obtain ⟨file, e, hf⟩ := ih (c + 1) (fc + 1) (by omega)
      have hg : g[fc]? = some g[fc] := List.getElem?_eq_getElem (by omega)
      refine ⟨_, by
        simp only [fc3SecondLines, hi, if_true, e, hg, Option.bind_some, Option.map_some,
          List.length_cons]
        rw [show c + 1 + ds.length = c + (ds.length + 1) by omega,
          show fc + 1 + (ds.map (fun d => d.included.getD true)).count true =
            fc + ((ds.map (fun d => d.included.getD true)).count true + 1) by omega], ?_⟩
      have : g.drop fc = g[fc] :: g.drop (fc + 1) := List.drop_eq_getElem_cons (by omega)
      rw [this]
      simp only [fillForces, List.map_cons, List.flatten_cons]
      rw [← hf, List.append_assoc, h2, forceRows_append, forceRows_rows]
    | false =>
      simp only [List.map_cons, hi] at h ⊢
      have hc : ((false :: ds.map (fun d => d.included.getD true)).count true) =
          (ds.map (fun d => d.included.getD true)).count true := by simp
      rw [hc] at h ⊢
      obtain ⟨file, e, hf⟩ := ih (c + 1) fc h
      refine ⟨_, by
        simp only [fc3SecondLines, hi, e, Option.map_some, List.length_cons, Bool.false_eq_true,
          if_false]
        rw [show c + 1 + ds.length = c + (ds.length + 1) by omega], ?_⟩
      simp only [fillForces, List.map_cons, List.flatten_cons]
      rw [← hf, List.append_assoc, h2, forceRows_append, forceRows_replicate, List.map_replicate]

/-- Which pairs are included. -/
def pairFlags (ds : List (Disp1 V K)) : List Bool :=
  ds.flatMap (fun d1 => d1.second.map (fun d => d.included.getD true))

theorem fc3Pair_given [Zero V] (shown : V → V) (h0 : shown 0 = 0) (g : List (List V))
    (natom : Nat) (c fc : Nat) (ds : List (Disp1 V K))
    (h : fc + (pairFlags ds).count true ≤ g.length) :
    ∃ file, fc3PairLines shown (some g) natom c fc ds = some file ∧
      forceRows file = ((fillForces natom (pairFlags ds) (g.drop fc)).map
        (fun b => b.map shown)).flatten := by
  induction ds generalizing c fc with
  | nil => exact ⟨[], rfl, rfl⟩
  | cons d ds ih =>
    have hp : pairFlags (d :: ds) = d.second.map (fun d => d.included.getD true) ++ pairFlags ds :=
      by simp [pairFlags]
    rw [hp, List.count_append] at h
    obtain ⟨f1, e1, r1⟩ := fc3Second_given shown h0 g natom d c fc d.second (by omega)
    obtain ⟨f2, e2, r2⟩ := ih (c + d.second.length)
      (fc + (d.second.map (fun d => d.included.getD true)).count true) (by omega)
    refine ⟨f1 ++ f2, by simp only [fc3PairLines, e1, Option.bind_some, e2, Option.map_some], ?_⟩
    rw [forceRows_append, r1, r2, hp, fillForces_append, List.map_append, List.flatten_append,
      List.drop_drop]

theorem displaced_flags [AddMonoid V] (ds : DispDataset V K) :
    (displacedCells ds).map (fun e => e.included) =
      List.replicate ds.first.length true ++ pairFlags ds.first := by
  unfold displacedCells pairFlags
  rw [List.map_append, List.map_map, List.map_flatMap]
  congr 1
  · generalize ds.first = l
    induction l with
    | nil => rfl
    | cons d l ih => simp [List.replicate_succ, ih]
  · simp [Function.comp_def]

theorem numDisp_eq [AddMonoid V] (ds : DispDataset V K) :
    ds.first.length + (ds.first.map (fun d => d.second.length)).sum =
      (displacedCells ds).length := by
  unfold displacedCells
  simp [List.length_flatMap]

/-- What the fill assigns: the given arrays to the included displacements, in order, and zeros to
the others. -/
theorem fillForces_spec [AddMonoid V] (natom : Nat) (es : List (Displaced V))
    (gs : List (List V)) (F : List V → List V)
    (h : (es.map (fun e => e.included)).count true = gs.length) :
    ((List.zipWith withForces es ((fillForces natom (es.map (fun e => e.included)) gs).map F)).filter
        (fun e => e.included)).map (fun e => e.forces) = gs.map (fun g => some (F g)) ∧
    ∀ e ∈ List.zipWith withForces es ((fillForces natom (es.map (fun e => e.included)) gs).map F),
      e.included = false → e.forces = some (F (List.replicate natom 0)) := by
  induction es generalizing gs with
  | nil =>
    cases gs with
    | nil => simp
    | cons g gs => simp at h
  | cons e es ih =>
    cases hi : e.included with
    | true =>
      cases gs with
      | nil => simp [hi] at h
      | cons g gs =>
        have := ih gs (by simpa [hi] using h)
        have hw : (withForces e (F g)).included = true := hi
        simp only [List.map_cons, hi, fillForces, List.zipWith_cons_cons, List.filter_cons, hw,
          if_true, this.1, List.mem_cons]
        refine ⟨rfl, ?_⟩
        rintro x (rfl | hx) hf
        · rw [hw] at hf; cases hf
        · exact this.2 x hx hf
    | false =>
      have := ih gs (by simpa [hi] using h)
      have hw : (withForces e (F (List.replicate natom 0))).included = false := hi
      simp only [List.map_cons, hi, fillForces, List.zipWith_cons_cons, List.filter_cons, hw,
        Bool.false_eq_true, if_false, this.1, List.mem_cons, true_and]
      rintro x (rfl | hx) hf
      · rfl
      · exact this.2 x hx hf

/-- **C45**. Forces given for the included displacements, one array each, written to FORCES_FC3 and
parsed with the same dataset: every included displacement gets its own forces as printed, every
pair excluded by the cutoff gets zero forces, and nothing else changes. -/
theorem C45_round_trip [AddMonoid V] (shown : V → V) (h0 : shown 0 = 0) (ds : DispDataset V K)
    (hn : 0 < ds.natom) (given : List (List V))
    (hlen : given.length = ((displacedCells ds).filter (fun e => e.included)).length)
    (hg : ∀ g ∈ given, g.length = ds.natom) :
    ∃ file ds', writeForcesFc3 shown ds (some given) = some file ∧
      parseForcesFc3 none ds file = some ds' ∧
      (displacedCells ds').map (fun e => (e.id, e.included, e.field)) =
        (displacedCells ds).map (fun e => (e.id, e.included, e.field)) ∧
      ((displacedCells ds').filter (fun e => e.included)).map (fun e => e.forces) =
        given.map (fun g => some (g.map shown)) ∧
      ∀ e ∈ displacedCells ds', e.included = false →
        e.forces = some (List.replicate ds.natom 0) := by
  have hcount : ((displacedCells ds).map (fun e => e.included)).count true = given.length := by
    rw [hlen, List.count, List.countP_map, List.countP_eq_length_filter]
    congr 1
    apply List.filter_congr
    intro e _
    simp
  have hflag := displaced_flags ds
  have hc2 : ds.first.length + (pairFlags ds.first).count true = given.length := by
    rw [← hcount, hflag, List.count_append, List.count_replicate_self]
  obtain ⟨f1, e1, r1⟩ := fc2Lines_given shown given 0 ds.first (by omega)
  obtain ⟨f2, e2, r2⟩ := fc3Pair_given shown h0 given ds.natom ds.first.length ds.first.length
    ds.first (by omega)
  have hrows : forceRows (f1 ++ f2) = ((fillForces ds.natom
      ((displacedCells ds).map (fun e => e.included)) given).map (fun b => b.map shown)).flatten := by
    rw [forceRows_append, r1, r2, hflag, fillForces_append, List.count_replicate_self,
      fillForces_true _ _ _ (by omega), List.map_append, List.flatten_append, List.drop_zero]
  have hblocks := parseBlocks_some ds.natom hn
    ((fillForces ds.natom ((displacedCells ds).map (fun e => e.included)) given).map
      (fun b => b.map shown)) (by
        intro b hb
        obtain ⟨c, hc, rfl⟩ := List.mem_map.1 hb
        rw [List.length_map]
        exact fillForces_rows _ _ _ (by omega) hg c hc) (f1 ++ f2) ⟨[], by rw [hrows]; simp⟩
  have hlenb : ((fillForces ds.natom ((displacedCells ds).map (fun e => e.included)) given).map
      (fun b => b.map shown)).length = (displacedCells ds).length := by
    rw [List.length_map, fillForces_length, List.length_map]
  rw [hlenb] at hblocks
  obtain ⟨ds', e3, -, h3⟩ := (C50_assign_partial ds
    ((fillForces ds.natom ((displacedCells ds).map (fun e => e.included)) given).map
      (fun b => b.map shown))).1 (by rw [hlenb])
  have hspec := fillForces_spec ds.natom (displacedCells ds) given (fun b => b.map shown) hcount
  rw [← h3] at hspec
  refine ⟨f1 ++ f2, ds', ?_, ?_, ?_, hspec.1, ?_⟩
  · simp only [writeForcesFc3, e1, e2, Option.bind_some, Option.map_some]
  · unfold parseForcesFc3
    simp only [numDisp_eq, hblocks, Option.bind_some, Option.getD_none]
    rw [← e3]
    congr 1
    simp
  · rw [h3]
    exact zipWith_same _ (fun _ _ => rfl) _ _ (by rw [hlenb])
  · intro e he hi
    rw [hspec.2 e he hi, List.map_replicate, h0]

/-- **C45**. A file with fewer lines of forces than the displacements need is an error. -/
theorem C45_truncated [AddMonoid V] (factor : Option (V → V)) (ds : DispDataset V K)
    (hn : 0 < ds.natom) (file : List (ForceLine V))
    (h : (forceRows file).length < (displacedCells ds).length * ds.natom) :
    parseForcesFc3 factor ds file = none := by
  unfold parseForcesFc3
  simp only [numDisp_eq, parseBlocks_none ds.natom hn _ file h, Option.bind_none]

/-- **C45**. Without given forces, a single displacement that has no stored forces makes the writer
fail. -/
theorem C45_missing_forces [AddMonoid V] (shown : V → V) (ds : DispDataset V K)
    (d : Disp1 V K) (hd : d ∈ ds.first) (hf : d.forces = none) :
    writeForcesFc3 shown ds none = none := by
  have : ∀ (i : Nat) (l : List (Disp1 V K)), d ∈ l → fc2Lines shown none i l = none := by
    intro i l
    induction l generalizing i with
    | nil => simp
    | cons e l ih =>
      intro h
      rcases List.mem_cons.1 h with rfl | h
      · simp [fc2Lines, hf]
      · simp only [fc2Lines, ih (i + 1) h]
        cases e.forces <;> simp
  simp [writeForcesFc3, this 0 _ hd]

theorem fc2Lines_stored (shown : V → V) (g : List (List V)) (i : Nat) (ds : List (Disp1 V K))
    (h : ds.map (fun d => d.forces) = ((g.drop i).take ds.length).map some) :
    fc2Lines shown none i ds = fc2Lines shown (some g) i ds := by
  induction ds generalizing i with
  | nil => rfl
  | cons d ds ih =>
    cases hg : g.drop i with
    | nil => simp [hg] at h
    | cons x l =>
      have hi : i < g.length := by
        by_contra hc
        rw [List.drop_of_length_le (by omega)] at hg
        cases hg
      have hx := List.drop_eq_getElem_cons hi
      rw [hg, List.cons.injEq] at hx
      rw [hg] at h
      simp only [List.map_cons, List.length_cons, List.take_succ_cons, List.cons.injEq] at h
      have hs : g[i]? = some x := by rw [List.getElem?_eq_getElem hi, hx.1]
      simp only [fc2Lines, h.1, hs]
      rw [ih (i + 1) (by rw [h.2, hx.2])]

theorem fc3Second_stored [AddMonoid V] (shown : V → V) (g : List (List V)) (natom : Nat)
    (d1 : Disp1 V K) (c fc : Nat) (ds : List (Disp2 V K))
    (hfc : fc ≤ g.length) (rest : List (List V))
    (h : (ds.filter (fun d => d.included.getD true)).map (fun d => d.forces) ++ rest.map some =
      (g.drop fc).map some) :
    fc3SecondLines shown none natom d1 c fc ds = fc3SecondLines shown (some g) natom d1 c fc ds ∧
      fc + (ds.map (fun d => d.included.getD true)).count true ≤ g.length ∧
      g.drop (fc + (ds.map (fun d => d.included.getD true)).count true) = rest := by
  induction ds generalizing c fc with
  | nil =>
    refine ⟨rfl, by simpa using hfc, ?_⟩
    simp only [List.filter_nil, List.map_nil, List.nil_append] at h
    simpa using (List.map_injective_iff.2 (Option.some_injective _) h).symm
  | cons d ds ih =>
    cases hi : d.included.getD true with
    | true =>
      simp only [List.filter_cons, hi, if_true, List.map_cons, List.cons_append] at h
      cases hg : g.drop fc with
      | nil => simp [hg] at h
      | cons x l =>
        have hlt : fc < g.length := by
          by_contra hc
          rw [List.drop_of_length_le (by omega)] at hg
          cases hg
        have hx := List.drop_eq_getElem_cons hlt
        rw [hg, List.cons.injEq] at hx
        rw [hg, List.map_cons, List.cons.injEq] at h
        have hs : g[fc]? = some x := by rw [List.getElem?_eq_getElem hlt, hx.1]
        have := ih (c + 1) (fc + 1) hlt (by rw [h.2, hx.2])
        simp only [List.map_cons, hi, List.count_cons_self]
        rw [show fc + ((ds.map (fun d => d.included.getD true)).count true + 1) =
          fc + 1 + (ds.map (fun d => d.included.getD true)).count true by omega]
        refine ⟨?_, this.2⟩
        simp only [fc3SecondLines, hi, if_true, h.1, hs]
        rw [this.1]
    | false =>
      simp only [List.filter_cons, hi, Bool.false_eq_true, if_false] at h
      have := ih (c + 1) fc hfc h
      have hc : ((false :: ds.map (fun d => d.included.getD true)).count true) =
          (ds.map (fun d => d.included.getD true)).count true := by simp
      simp only [List.map_cons, hi]
      rw [hc]
      refine ⟨?_, this.2⟩
      simp only [fc3SecondLines, hi, Bool.false_eq_true, if_false]
      rw [this.1]

theorem fc3Pair_stored [AddMonoid V] (shown : V → V) (g : List (List V)) (natom : Nat)
    (c fc : Nat) (ds : List (Disp1 V K)) (hfc : fc ≤ g.length)
    (h : ds.flatMap (fun d1 => (d1.second.filter (fun d => d.included.getD true)).map
      (fun d => d.forces)) = (g.drop fc).map some) :
    fc3PairLines shown none natom c fc ds = fc3PairLines shown (some g) natom c fc ds := by
  induction ds generalizing c fc with
  | nil => rfl
  | cons d ds ih =>
    rw [List.flatMap_cons] at h
    have hrest : ∃ rest : List (List V), ds.flatMap (fun d1 =>
        (d1.second.filter (fun d => d.included.getD true)).map (fun d => d.forces)) =
          rest.map some := by
      refine ⟨(g.drop fc).drop ((d.second.filter (fun d => d.included.getD true)).map
        (fun d => d.forces)).length, ?_⟩
      rw [List.map_drop, ← h, List.drop_left]
    obtain ⟨rest, hrest⟩ := hrest
    rw [hrest] at h
    have h1 := fc3Second_stored shown g natom d c fc d.second hfc rest h
    simp only [fc3PairLines, h1.1]
    cases hs : fc3SecondLines shown (some g) natom d c fc d.second with
    | none => rfl
    | some r =>
      have hr : r.2.2 = fc + (d.second.map (fun d => d.included.getD true)).count true := by
        have : ∀ (c fc : Nat) (l : List (Disp2 V K)) (r : List (ForceLine V) × Nat × Nat),
            fc3SecondLines shown (some g) natom d c fc l = some r →
              r.2.2 = fc + (l.map (fun d => d.included.getD true)).count true := by
          intro c fc l
          induction l generalizing c fc with
          | nil => intro r hr; simp only [fc3SecondLines, Option.some.injEq] at hr; subst hr; rfl
          | cons e l ih' =>
            intro r hr
            cases hi : e.included.getD true with
            | true =>
              simp only [fc3SecondLines, hi, if_true] at hr
              cases hf : fc3SecondLines shown (some g) natom d (c + 1) (fc + 1) l with
              | none => simp [hf] at hr
              | some t =>
                have := ih' _ _ t hf
                simp only [hf, Option.map_some] at hr
                obtain ⟨fs, -, hr⟩ := Option.bind_eq_some_iff.1 hr
                simp only [Option.some.injEq] at hr
                subst hr
                simp only [this, List.map_cons, hi, List.count_cons_self]
                omega
            | false =>
              simp only [fc3SecondLines, hi, Bool.false_eq_true, if_false] at hr
              cases hf : fc3SecondLines shown (some g) natom d (c + 1) fc l with
              | none => simp [hf] at hr
              | some t =>
                have := ih' _ _ t hf
                simp only [hf, Option.map_some, Option.some.injEq] at hr
                subst hr
                simp [this, hi]
        exact this _ _ _ r hs
      simp only [Option.bind_some]
      rw [ih _ _ (by rw [hr]; exact h1.2.1) (by rw [hr, h1.2.2, hrest])]

/-- **C45**. Forces stored in the dataset, written without the argument and parsed again: every
included displacement gets its own forces as printed, and every excluded pair zero forces. -/
theorem C45_stored [AddMonoid V] (shown : V → V) (h0 : shown 0 = 0) (ds : DispDataset V K)
    (hn : 0 < ds.natom)
    (hf : ∀ e ∈ displacedCells ds, e.included = true → ∃ f, e.forces = some f ∧ f.length = ds.natom) :
    ∃ file ds', writeForcesFc3 shown ds none = some file ∧
      parseForcesFc3 none ds file = some ds' ∧
      (displacedCells ds').map (fun e => (e.id, e.included, e.field)) =
        (displacedCells ds).map (fun e => (e.id, e.included, e.field)) ∧
      ((displacedCells ds').filter (fun e => e.included)).map (fun e => e.forces) =
        ((displacedCells ds).filter (fun e => e.included)).map
          (fun e => e.forces.map (fun f => f.map shown)) ∧
      ∀ e ∈ displacedCells ds', e.included = false →
        e.forces = some (List.replicate ds.natom 0) := by
  have hg : ∃ g : List (List V), ((displacedCells ds).filter (fun e => e.included)).map
      (fun e => e.forces) = g.map some ∧ ∀ x ∈ g, x.length = ds.natom := by
    generalize displacedCells ds = l at hf
    induction l with
    | nil => exact ⟨[], rfl, by simp⟩
    | cons e l ih =>
      obtain ⟨g, h1, h2⟩ := ih (fun x hx => hf x (by simp [hx]))
      cases hi : e.included with
      | true =>
        obtain ⟨f, h3, h4⟩ := hf e (by simp) hi
        refine ⟨f :: g, by simp [hi, h1, h3], ?_⟩
        intro x hx
        rcases List.mem_cons.1 hx with rfl | hx
        · exact h4
        · exact h2 x hx
      | false => exact ⟨g, by simp [hi, h1], h2⟩
  obtain ⟨g, hg1, hg2⟩ := hg
  have hlen : g.length = ((displacedCells ds).filter (fun e => e.included)).length := by
    simpa using (congrArg List.length hg1).symm
  obtain ⟨file, ds', h1, h2, h3, h4, h5⟩ := C45_round_trip shown h0 ds hn g hlen hg2
  have hsplit : ds.first.map (fun d => d.forces) ++ ds.first.flatMap (fun d1 =>
      (d1.second.filter (fun d => d.included.getD true)).map (fun d => d.forces)) = g.map some := by
    rw [← hg1, displacedCells_eq, List.filter_append, List.map_append]
    congr 1
    · rw [List.filter_eq_self.2 (by
        intro e he
        obtain ⟨d, -, rfl⟩ := List.mem_map.1 he
        rfl), List.map_map]
      rfl
    · unfold pairCells
      rw [List.filter_flatMap, List.map_flatMap]
      congr 1
      funext d
      rw [List.filter_map, List.map_map]
      rfl
  have hfl : ds.first.length ≤ g.length := by
    have := congrArg List.length hsplit
    rw [List.length_append, List.length_map, List.length_map] at this
    omega
  refine ⟨file, ds', ?_, h2, h3, ?_, h5⟩
  · rw [← h1]
    unfold writeForcesFc3
    have t1 : ds.first.map (fun d => d.forces) = (g.take ds.first.length).map some := by
      rw [List.map_take, ← hsplit, List.take_left' (by simp)]
    have t2 : ds.first.flatMap (fun d1 => (d1.second.filter (fun d => d.included.getD true)).map
        (fun d => d.forces)) = (g.drop ds.first.length).map some := by
      rw [List.map_drop, ← hsplit, List.drop_left' (by simp)]
    rw [fc2Lines_stored shown g 0 ds.first (by rw [List.drop_zero]; exact t1),
      fc3Pair_stored shown g ds.natom _ _ ds.first hfl t2]
  · rw [h4]
    have := congrArg (List.map (Option.map (fun f : List V => f.map shown))) hg1
    rw [List.map_map, List.map_map] at this
    exact this.symm

/-- **C46**. Forces written to FORCES_FC2 and parsed with the same dataset are recovered, in order,
as printed. -/
theorem C46_round_trip [AddMonoid V] (shown : V → V) (ds : DispDataset V K) (hn : 0 < ds.natom)
    (given : List (List V)) (hlen : given.length = ds.first.length)
    (hg : ∀ g ∈ given, g.length = ds.natom) :
    ∃ file ds', fc2Lines shown (some given) 0 ds.first = some file ∧
      parseForcesFc2 none ds file = (ds', false) ∧
      ds'.first.map (fun d => d.forces) = given.map (fun g => some (g.map shown)) ∧
      ds'.first.map (fun d => (d.id, d.number, d.displacement)) =
        ds.first.map (fun d => (d.id, d.number, d.displacement)) := by
  obtain ⟨f1, e1, r1⟩ := fc2Lines_given shown given 0 ds.first (by omega)
  rw [List.drop_zero, ← hlen, List.take_length] at r1
  have hb := parseBlocks_some ds.natom hn (given.map (fun b => b.map shown)) (by
    intro b hb
    obtain ⟨c, hc, rfl⟩ := List.mem_map.1 hb
    rw [List.length_map]
    exact hg c hc) f1 ⟨[], by rw [r1]; simp⟩
  rw [List.length_map, hlen] at hb
  have hset : ∀ (l : List (Disp1 V K)) (vs : List (List V)), vs.length = l.length →
      ∃ l', setFirstForces l vs = some (l', []) ∧ l'.map (fun d => d.forces) = vs.map some ∧
        l'.map (fun d => (d.id, d.number, d.displacement)) =
          l.map (fun d => (d.id, d.number, d.displacement)) := by
    intro l
    induction l with
    | nil => intro vs h; cases vs <;> simp_all [setFirstForces]
    | cons d l ih =>
      intro vs h
      cases vs with
      | nil => simp at h
      | cons v vs =>
        obtain ⟨l', e, h1, h2⟩ := ih vs (by simpa using h)
        exact ⟨{ d with forces := some v } :: l', by simp [setFirstForces, e], by simp [h1],
          by simp [h2]⟩
  obtain ⟨l', e2, h1, h2⟩ := hset ds.first (given.map (fun b => b.map shown)) (by simpa using hlen)
  refine ⟨f1, { ds with first := l' }, e1, ?_, ?_, h2⟩
  · unfold parseForcesFc2
    simp only [hb, Option.getD_none]
    rw [show ((given.map (fun b => b.map shown)).map (fun f => f.map id)) =
      given.map (fun b => b.map shown) by simp, e2]
  · rw [h1, List.map_map]
    rfl

/-- **C46**. With too few lines the parser returns the empty list instead of `None` and stores
nothing. No exception is raised. -/
theorem C46_short_file_partial (factor : Option (V → V)) (ds : DispDataset V K) (hn : 0 < ds.natom)
    (file : List (ForceLine V)) (h : (forceRows file).length < ds.first.length * ds.natom) :
    parseForcesFc2 factor ds file = (ds, true) := by
  unfold parseForcesFc2
  rw [parseBlocks_none ds.natom hn _ file h]

/-- **C46**, what fails. The reader of the command line drops that return value: with too few lines
it succeeds and hands back the dataset without forces, as if they had been read. -/
theorem C46_reader_silent (ds : DispDataset V K) (hn : 0 < ds.natom)
    (file : List (ForceLine V)) (h : (forceRows file).length < ds.first.length * ds.natom) :
    readForcesFc2 ds file = some ds := by
  unfold readForcesFc2
  rw [C46_short_file_partial none ds hn file h]

end Files

end Phono3py.Props
