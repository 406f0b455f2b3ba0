import Verif.Props.Dataset
import Verif.Model.Phono3pyYaml
import Mathlib.Data.List.Sort

/-!
# C135: a dataset of displacements and forces survives phono3py.yaml

`Phono3py.save` writes the dataset into phono3py.yaml and `phono3py.load` reads it. The
specification is `readBackDataset`: the same supercells in the same order, with rounded numbers,
running ids, and forces and energies if they were asked for.
-/

namespace Phono3py.Props

variable {V K : Type}

/-! ## Specification -/

/-- What a pair of displacements should be after saving and loading. Without forces in the file
there are no forces and energies; with forces in the file the key `included` is absent. -/
def readBackSecond (r16 : V → V) (r8 : K → K) (withForces : Bool) (d : KeyedSecond V K) :
    KeyedSecond V K :=
  { id := d.id
    number := d.number
    displacement := r16 d.displacement
    pairDistance := d.pairDistance.map r8
    included := if withForces && d.forces.isSome then none else d.included
    forces := if withForces then d.forces.map (fun fs => fs.map r16) else none
    energy := if withForces && d.forces.isSome then d.energy.map r8 else none }

/-- Running ids: the first entry gets `c + 1`. -/
def numberedFrom (c : Nat) (l : List (KeyedSecond V K)) : List (KeyedSecond V K) :=
  (l.zipIdx (c + 1)).map (fun p => { p.1 with id := some p.2 })

/-- Expected first atoms: `i` of them come before, and `c` displaced supercells come before the
first pair. -/
def readBackFirst (r16 : V → V) (r8 : K → K) (withForces : Bool) :
    Nat → Nat → List (KeyedFirst V K) → List (KeyedFirst V K)
  | _, _, [] => []
  | i, c, d :: ds =>
    { id := some (i + 1)
      number := d.number
      displacement := r16 d.displacement
      forces := if withForces then d.forces.map (fun fs => fs.map r16) else none
      energy := if withForces && d.forces.isSome then d.energy.map r8 else none
      second := numberedFrom c (d.second.map (readBackSecond r16 r8 withForces)) } ::
      readBackFirst r16 r8 withForces (i + 1) (c + d.second.length) ds

/-- The dataset expected after saving and loading. -/
def readBackDataset (r16 : V → V) (r8 : K → K) (withForces : Bool) (ds : KeyedDataset V K) :
    KeyedDataset V K :=
  { natom := ds.natom
    duplicates := ds.duplicates
    cutoff := ds.cutoff.map r8
    first := readBackFirst r16 r8 withForces 0 ds.first.length ds.first }

/-- Ids that are present are the running numbers after `c`. -/
def IdsRunFrom (c : Nat) (l : List (KeyedSecond V K)) : Prop :=
  ∀ p ∈ l.zipIdx (c + 1), p.1.id = none ∨ p.1.id = some p.2

/-- The pairs of one first atom have a distance each, and pairs with the same second atom have the
same distance, the same mark `included`, and either all or none have forces. -/
def UniformPairs (l : List (KeyedSecond V K)) : Prop :=
  (∀ a ∈ l, a.pairDistance.isSome) ∧
  ∀ a ∈ l, ∀ b ∈ l, a.number = b.number →
    a.pairDistance = b.pairDistance ∧ a.included = b.included ∧
      a.forces.isSome = b.forces.isSome

/-- Second atoms come in increasing order. -/
def InAtomOrder (l : List (KeyedSecond V K)) : Prop :=
  l.Pairwise (fun a b => a.number ≤ b.number)

/-- First atoms that are in order: at least one pair each, second atoms in increasing order and
uniform, running ids. -/
def FirstInOrder : Nat → Nat → List (KeyedFirst V K) → Prop
  | _, _, [] => True
  | i, c, d :: ds =>
    (d.id = none ∨ d.id = some (i + 1)) ∧ d.second ≠ [] ∧ InAtomOrder d.second ∧
      UniformPairs d.second ∧ IdsRunFrom c d.second ∧
      FirstInOrder (i + 1) (c + d.second.length) ds

/-- A dataset in order. -/
def DatasetInOrder (ds : KeyedDataset V K) : Prop :=
  ds.first ≠ [] ∧ FirstInOrder 0 ds.first.length ds.first

/-! ## Lists -/

theorem idAccepted_of {id : Option Nat} {c : Nat} (h : id = none ∨ id = some c) :
    idAccepted id c = true := by
  rcases h with h | h <;> simp [idAccepted, h]

theorem idsRunFrom_cons {c : Nat} {d : KeyedSecond V K} {l : List (KeyedSecond V K)} :
    IdsRunFrom c (d :: l) ↔ (d.id = none ∨ d.id = some (c + 1)) ∧ IdsRunFrom (c + 1) l := by
  simp [IdsRunFrom, List.zipIdx_cons]

theorem idsRunFrom_append {c : Nat} {a b : List (KeyedSecond V K)} :
    IdsRunFrom c (a ++ b) ↔ IdsRunFrom c a ∧ IdsRunFrom (c + a.length) b := by
  induction a generalizing c with
  | nil => simp [IdsRunFrom]
  | cons x a ih =>
    rw [List.cons_append, idsRunFrom_cons, idsRunFrom_cons, ih, and_assoc,
      show c + 1 + a.length = c + (x :: a).length by simp only [List.length_cons]; omega]

theorem numberedFrom_cons (c : Nat) (d : KeyedSecond V K) (l : List (KeyedSecond V K)) :
    numberedFrom c (d :: l) = { d with id := some (c + 1) } :: numberedFrom (c + 1) l := by
  simp [numberedFrom, List.zipIdx_cons]

theorem numberedFrom_append (c : Nat) (a b : List (KeyedSecond V K)) :
    numberedFrom c (a ++ b) = numberedFrom c a ++ numberedFrom (c + a.length) b := by
  induction a generalizing c with
  | nil => simp [numberedFrom]
  | cons x a ih =>
    rw [List.cons_append, numberedFrom_cons, numberedFrom_cons, ih, List.cons_append,
      show c + 1 + a.length = c + (x :: a).length by simp only [List.length_cons]; omega]

theorem loadPairs_append (c : Nat) (a b : List (YamlPair V K)) :
    loadPairs c (a ++ b) = (loadPairs c a).bind fun s =>
      (loadPairs s.2 b).map fun r => (s.1 ++ r.1, r.2) := by
  induction a generalizing c with
  | nil => simp [loadPairs]
  | cons p a ih =>
    simp only [List.cons_append, loadPairs, ih]
    cases p.forces with
    | none =>
      cases loadWithoutForces c p with
      | none => rfl
      | some s =>
        simp only [Option.bind_some]
        cases loadPairs s.2 a with
        | none => rfl
        | some t =>
          simp only [Option.bind_some, Option.map_some]
          cases loadPairs t.2 b <;> simp
    | some fs =>
      dsimp only
      cases loadWithForces c p fs with
      | none => rfl
      | some s =>
        simp only [Option.bind_some]
        cases loadPairs s.2 a with
        | none => rfl
        | some t =>
          simp only [Option.bind_some, Option.map_some]
          cases loadPairs t.2 b <;> simp

theorem mem_uniqueNumbers {ns : List Nat} {n : Nat} : n ∈ uniqueNumbers ns ↔ n ∈ ns := by
  have hmax : ∀ (l : List Nat) (k : Nat), k ∈ l → k ≤ l.foldr max 0 := by
    intro l
    induction l with
    | nil => simp
    | cons x l ih =>
      intro k hk
      rcases List.mem_cons.1 hk with rfl | hk
      · exact Nat.le_max_left _ _
      · exact (ih k hk).trans (Nat.le_max_right _ _)
  simp only [uniqueNumbers, List.mem_filter, List.mem_range, decide_eq_true_eq]
  exact ⟨fun h => h.2, fun h => ⟨Nat.lt_succ_of_le (hmax ns n h), h⟩⟩

theorem uniqueNumbers_sorted (ns : List Nat) : (uniqueNumbers ns).Pairwise (· < ·) :=
  List.Pairwise.filter _ List.pairwise_lt_range

/-- The pairs in the order in which they are written. -/
def byAtom (ns : List Nat) (l : List (KeyedSecond V K)) : List (KeyedSecond V K) :=
  ns.flatMap (fun n => l.filter (fun d => decide (d.number = n)))

theorem byAtom_skip {ns : List Nat} {d : KeyedSecond V K} {l : List (KeyedSecond V K)}
    (h : d.number ∉ ns) : byAtom ns (d :: l) = byAtom ns l := by
  induction ns with
  | nil => rfl
  | cons n ns ih =>
    simp only [List.mem_cons, not_or] at h
    have h2 := ih h.2
    simp only [byAtom, List.flatMap_cons] at h2 ⊢
    rw [h2, List.filter_cons_of_neg (by simpa using h.1)]

theorem byAtom_head {ns : List Nat} {d : KeyedSecond V K} {l : List (KeyedSecond V K)}
    (hns : ns.Pairwise (· < ·)) (hd : d.number ∈ ns) (hl : ∀ e ∈ l, d.number ≤ e.number) :
    byAtom ns (d :: l) = d :: byAtom ns l := by
  induction ns with
  | nil => simp at hd
  | cons n ns ih =>
    have hp := List.pairwise_cons.1 hns
    rcases Nat.lt_or_ge n d.number with hlt | hge
    · have hne : ¬ d.number = n := by omega
      have hmem : d.number ∈ ns := by
        rcases List.mem_cons.1 hd with h | h
        · exact absurd h hne
        · exact h
      have h2 := ih hp.2 hmem
      have he : l.filter (fun e => decide (e.number = n)) = [] := by
        rw [List.filter_eq_nil_iff]
        intro e he
        have := hl e he
        simp only [decide_eq_true_eq]
        omega
      simp only [byAtom, List.flatMap_cons] at h2 ⊢
      rw [h2, List.filter_cons_of_neg (by simpa using hne), he, List.nil_append, List.nil_append]
    · have heq : n = d.number := by
        rcases List.mem_cons.1 hd with h | h
        · exact h.symm
        · have := hp.1 _ h
          omega
      subst heq
      have hnot : d.number ∉ ns := fun h => lt_irrefl _ (hp.1 _ h)
      have h2 := byAtom_skip (l := l) hnot
      simp only [byAtom, List.flatMap_cons] at h2 ⊢
      rw [h2, List.filter_cons_of_pos (by simp), List.cons_append]

theorem byAtom_nil (ns : List Nat) : byAtom ns ([] : List (KeyedSecond V K)) = [] := by
  simp [byAtom]

theorem byAtom_of_sorted {ns : List Nat} (hns : ns.Pairwise (· < ·))
    {l : List (KeyedSecond V K)} (hl : InAtomOrder l) (hmem : ∀ d ∈ l, d.number ∈ ns) :
    byAtom ns l = l := by
  induction l with
  | nil => exact byAtom_nil ns
  | cons d l ih =>
    have hp := List.pairwise_cons.1 hl
    rw [byAtom_head hns (hmem d (by simp)) hp.1, ih hp.2 (fun e he => hmem e (by simp [he]))]

/-! ## Saving and loading the pairs of one first atom -/

theorem save_load_withForces (r16 : V → V) (r8 : K → K) (atom : Nat) (g : List (KeyedSecond V K)) :
    ∀ c : Nat, (∀ d ∈ g, d.number = atom ∧ d.forces.isSome ∧ d.pairDistance.isSome) →
      IdsRunFrom c g →
      ∃ items, saveWithForces r16 r8 atom c g = some items ∧
        loadPairs c items =
          some (numberedFrom c (g.map (readBackSecond r16 r8 true)), c + g.length) := by
  induction g with
  | nil => intro c _ _; exact ⟨[], rfl, by simp [loadPairs, numberedFrom]⟩
  | cons d g ih =>
    intro c hg hid
    obtain ⟨hn, hf, hp⟩ := hg d (by simp)
    obtain ⟨fs, hfs⟩ := Option.isSome_iff_exists.1 hf
    obtain ⟨dist, hdist⟩ := Option.isSome_iff_exists.1 hp
    rw [idsRunFrom_cons] at hid
    obtain ⟨items, h1, h2⟩ := ih (c + 1) (fun e he => hg e (by simp [he])) hid.2
    have hacc := idAccepted_of hid.1
    refine ⟨_, by
      simp only [saveWithForces, hdist, Option.bind_some, hacc, if_true, hfs, h1, Option.map_some]
      rfl,
      ?_⟩
    have hacc2 : idAccepted (some (c + 1)) (c + 1) = true := by simp [idAccepted]
    simp only [loadPairs, loadWithForces, Option.bind_some, hacc2, if_true, h2, Option.map_some,
      List.map_cons, numberedFrom_cons]
    simp only [readBackSecond, hfs, hdist, hn, Option.map_some, Option.isSome_some, Bool.and_self,
      if_true, Nat.add_sub_cancel, List.cons_append, List.nil_append, List.length_cons,
      Nat.add_assoc, Nat.add_comm 1]

theorem saveDisplacements_eq (r16 : V → V) (g : List (KeyedSecond V K)) :
    ∀ c : Nat, IdsRunFrom c g →
      saveDisplacements r16 c g =
        some (g.map (fun d => r16 d.displacement), List.range' (c + 1) g.length) := by
  induction g with
  | nil => intro c _; simp [saveDisplacements]
  | cons d g ih =>
    intro c hid
    rw [idsRunFrom_cons] at hid
    simp [saveDisplacements, idAccepted_of hid.1, ih (c + 1) hid.2, List.range'_succ]

theorem stampIds_eq (l : List (KeyedSecond V K)) :
    ∀ c : Nat, stampIds c (List.range' (c + 1) l.length) l =
      some (numberedFrom c l, c + l.length) := by
  induction l with
  | nil => intro c; simp [stampIds, numberedFrom]
  | cons d l ih =>
    intro c
    simp only [List.length_cons, List.range'_succ, stampIds, if_true, ih (c + 1), Option.map_some,
      numberedFrom_cons]
    rw [show c + 1 + l.length = c + (l.length + 1) by omega]

theorem save_load_group (r16 : V → V) (r8 : K → K) (withForces : Bool) (atom : Nat)
    (g : List (KeyedSecond V K)) (c : Nat) (hne : g ≠ []) (hn : ∀ d ∈ g, d.number = atom)
    (hu : UniformPairs g) (hid : IdsRunFrom c g) :
    ∃ items, saveGroup r16 r8 withForces atom c g = some items ∧
      loadPairs c items =
        some (numberedFrom c (g.map (readBackSecond r16 r8 withForces)), c + g.length) := by
  cases g with
  | nil => exact absurd rfl hne
  | cons d g =>
    have hd : d ∈ d :: g := by simp
    have huni : ∀ e ∈ d :: g, e.pairDistance = d.pairDistance ∧ e.included = d.included ∧
        e.forces.isSome = d.forces.isSome :=
      fun e he => hu.2 e he d hd ((hn e he).trans (hn d hd).symm)
    by_cases hf : (withForces && d.forces.isSome) = true
    · have hf' := (Bool.and_eq_true _ _).mp hf
      obtain ⟨hw, hs⟩ := hf'
      subst hw
      obtain ⟨items, h1, h2⟩ := save_load_withForces r16 r8 atom (d :: g) c
        (fun e he => ⟨hn e he, by rw [(huni e he).2.2]; exact hs, hu.1 e he⟩) hid
      exact ⟨items, by simp only [saveGroup, hf, if_true, h1], h2⟩
    · obtain ⟨dist, hdist⟩ := Option.isSome_iff_exists.1 (hu.1 d hd)
      refine ⟨_, by
        simp only [saveGroup, hf, hdist, Option.bind_some, saveDisplacements_eq r16 _ c hid,
          Option.map_some]
        rfl, ?_⟩
      simp only [loadPairs, loadWithoutForces, Option.bind_some, Nat.add_sub_cancel, List.append_nil]
      have hl : (List.map (fun u => (⟨none, atom, u, some (r8 dist), d.included, none, none⟩ : KeyedSecond V K)) ((d :: g).map (fun d => r16 d.displacement))).length
          = (d :: g).length := by simp
      have h3 := stampIds_eq (List.map (fun u => (⟨none, atom, u, some (r8 dist), d.included, none, none⟩ : KeyedSecond V K)) ((d :: g).map (fun d => r16 d.displacement))) c
      rw [hl] at h3
      rw [h3]
      simp only [Option.bind_some, Option.map_some, List.append_nil, Option.some.injEq,
        Prod.mk.injEq, and_true]
      have hmap : ∀ (k : Nat) (l : List (KeyedSecond V K)), (∀ e ∈ l, e ∈ d :: g) →
          numberedFrom k (List.map (fun u => (⟨none, atom, u, some (r8 dist), d.included, none, none⟩ : KeyedSecond V K)) (l.map (fun d => r16 d.displacement))) =
          numberedFrom k (l.map (readBackSecond r16 r8 withForces)) := by
        intro k l
        induction l generalizing k with
        | nil => intro _; rfl
        | cons e l ih =>
          intro hl
          have he := hl e (by simp)
          obtain ⟨e1, e2, e3⟩ := huni e he
          simp only [List.map_cons, numberedFrom_cons, ih (k + 1) (fun x hx => hl x (by simp [hx]))]
          congr 1
          have hf2 : (withForces && e.forces.isSome) = false := by
            rw [e3]; exact Bool.eq_false_iff.2 hf
          simp only [readBackSecond, hf2, e1, hdist, e2, hn e he, Option.map_some]
          cases hw : withForces with
          | false => rfl
          | true =>
            rw [hw, Bool.true_and] at hf2
            have : e.forces = none := by simpa using hf2
            simp [this]
      exact hmap c (d :: g) (fun e he => he)

theorem uniformPairs_filter {l : List (KeyedSecond V K)} (h : UniformPairs l)
    (p : KeyedSecond V K → Bool) : UniformPairs (l.filter p) :=
  ⟨fun a ha => h.1 a (List.mem_filter.1 ha).1, fun a ha b hb =>
    h.2 a (List.mem_filter.1 ha).1 b (List.mem_filter.1 hb).1⟩

theorem save_load_groups (r16 : V → V) (r8 : K → K) (withForces : Bool)
    (l : List (KeyedSecond V K)) (hu : UniformPairs l) (ns : List Nat) :
    ∀ c : Nat, (∀ n ∈ ns, ∃ d ∈ l, d.number = n) → IdsRunFrom c (byAtom ns l) →
      ∃ items, saveGroups r16 r8 withForces l c ns = some (items, c + (byAtom ns l).length) ∧
        loadPairs c items =
          some (numberedFrom c ((byAtom ns l).map (readBackSecond r16 r8 withForces)),
            c + (byAtom ns l).length) := by
  induction ns with
  | nil => intro c _ _; exact ⟨[], by simp [saveGroups, byAtom], by simp [loadPairs, byAtom, numberedFrom]⟩
  | cons n ns ih =>
    intro c hns hid
    have hcons : byAtom (n :: ns) l = l.filter (fun d => decide (d.number = n)) ++ byAtom ns l := rfl
    rw [hcons] at hid ⊢
    rw [idsRunFrom_append] at hid
    obtain ⟨d, hd, hdn⟩ := hns n (by simp)
    obtain ⟨i1, h1, h2⟩ := save_load_group r16 r8 withForces n
      (l.filter (fun d => decide (d.number = n))) c
      (List.ne_nil_of_mem (List.mem_filter.2 ⟨hd, by simpa using hdn⟩))
      (fun e he => by simpa using (List.mem_filter.1 he).2) (uniformPairs_filter hu _) hid.1
    obtain ⟨i2, h3, h4⟩ := ih (c + (l.filter (fun d => decide (d.number = n))).length)
      (fun m hm => hns m (by simp [hm])) hid.2
    refine ⟨i1 ++ i2, ?_, ?_⟩
    · simp only [saveGroups, h1, Option.bind_some, h3, Option.map_some, List.length_append,
        Nat.add_assoc]
    · rw [loadPairs_append, h2]
      simp only [Option.bind_some, h4, Option.map_some, List.map_append, numberedFrom_append,
        List.length_map, List.length_append, Nat.add_assoc]

/-- Saving and loading the pairs of one first atom, in whatever order they are: they come back in
the order of the second atoms. -/
theorem save_load_second (r16 : V → V) (r8 : K → K) (withForces : Bool) (c : Nat)
    (l : List (KeyedSecond V K)) (hu : UniformPairs l)
    (hid : IdsRunFrom c (byAtom (uniqueNumbers (l.map (fun d => d.number))) l)) :
    ∃ items, saveSecond r16 r8 withForces c l =
        some (items, c + (byAtom (uniqueNumbers (l.map (fun d => d.number))) l).length) ∧
      loadPairs c items = some (numberedFrom c
        ((byAtom (uniqueNumbers (l.map (fun d => d.number))) l).map
          (readBackSecond r16 r8 withForces)),
        c + (byAtom (uniqueNumbers (l.map (fun d => d.number))) l).length) := by
  apply save_load_groups r16 r8 withForces l hu
  · intro n hn
    rw [mem_uniqueNumbers, List.mem_map] at hn
    exact hn
  · exact hid

theorem byAtom_inOrder {l : List (KeyedSecond V K)} (h : InAtomOrder l) :
    byAtom (uniqueNumbers (l.map (fun d => d.number))) l = l :=
  byAtom_of_sorted (uniqueNumbers_sorted _) h
    (fun d hd => mem_uniqueNumbers.2 (List.mem_map.2 ⟨d, hd, rfl⟩))

theorem save_load_first (r16 : V → V) (r8 : K → K) (withForces : Bool)
    (ds : List (KeyedFirst V K)) :
    ∀ i c : Nat, FirstInOrder i c ds →
      ∃ ps, saveFirst r16 r8 withForces i c ds = some ps ∧ ps.length = ds.length ∧
        loadFirst i c ps = some (readBackFirst r16 r8 withForces i c ds) := by
  induction ds with
  | nil => intro i c _; exact ⟨[], rfl, rfl, rfl⟩
  | cons d ds ih =>
    intro i c h
    obtain ⟨h1, h2, h3, h4, h5, h6⟩ := h
    obtain ⟨items, hs, hl⟩ := save_load_second r16 r8 withForces c d.second h4
      (by rw [byAtom_inOrder h3]; exact h5)
    rw [byAtom_inOrder h3] at hs hl
    obtain ⟨ps, hp, hlen, hq⟩ := ih (i + 1) (c + d.second.length) h6
    refine ⟨_, by
      simp only [saveFirst, idAccepted_of h1, if_true, hs, Option.bind_some, hp, Option.map_some]
      rfl,
      by simp [hlen], ?_⟩
    have hne : ¬ items = [] := by
      intro he
      rw [he, loadPairs, Option.some.injEq, Prod.mk.injEq] at hl
      have := congrArg List.length hl.1
      simp only [numberedFrom, List.length_nil, List.length_map, List.length_zipIdx] at this
      exact h2 (List.length_eq_zero_iff.1 this.symm)
    have hacc2 : idAccepted (some (i + 1)) (i + 1) = true := by simp [idAccepted]
    simp only [loadFirst, hacc2, if_true, hne, if_false, hl, Option.bind_some, hq, Option.map_some,
      readBackFirst, Nat.add_sub_cancel]

/-- **C135**, the part that holds. A dataset whose second atoms come in increasing order is read
back from phono3py.yaml with every supercell, in the same order, with running ids, the cutoff, the
duplicates and, if asked for, the forces and energies; numbers are rounded to the printed digits.
What is missing is the mark `included`, which a file with forces does not hold
(`C135_included_lost`). -/
theorem C135_round_trip_partial (r16 : V → V) (r8 : K → K) (withForces : Bool)
    (ds : KeyedDataset V K) (h : DatasetInOrder ds) :
    (saveDataset r16 r8 withForces ds).bind (loadDataset ds.natom) =
      some (readBackDataset r16 r8 withForces ds) := by
  obtain ⟨h1, h2⟩ := h
  obtain ⟨ps, hs, hlen, hl⟩ := save_load_first r16 r8 withForces ds.first 0 ds.first.length h2
  have hps : ¬ ps = [] := by
    intro he
    rw [he] at hlen
    exact h1 (List.length_eq_zero_iff.1 hlen.symm)
  simp only [saveDataset, h1, if_false, hs, Option.map_some, Option.bind_some, loadDataset, hps,
    hlen, hl, readBackDataset]

/-! ## Saving what was loaded -/

theorem readBackSecond_again {r16 : V → V} {r8 : K → K} (h16 : ∀ v, r16 (r16 v) = r16 v)
    (h8 : ∀ x, r8 (r8 x) = r8 x) (withForces : Bool) (d : KeyedSecond V K) (i : Option Nat) :
    readBackSecond r16 r8 withForces { readBackSecond r16 r8 withForces d with id := i } =
      { readBackSecond r16 r8 withForces d with id := i } := by
  cases withForces <;> cases hd : d.forces <;> cases hp : d.pairDistance <;> cases he : d.energy <;>
    simp [readBackSecond, hd, hp, he, h16, h8]

theorem numberedFrom_again {r16 : V → V} {r8 : K → K} (h16 : ∀ v, r16 (r16 v) = r16 v)
    (h8 : ∀ x, r8 (r8 x) = r8 x) (withForces : Bool) (l : List (KeyedSecond V K)) :
    ∀ c : Nat, numberedFrom c ((numberedFrom c (l.map (readBackSecond r16 r8 withForces))).map
        (readBackSecond r16 r8 withForces)) =
      numberedFrom c (l.map (readBackSecond r16 r8 withForces)) := by
  induction l with
  | nil => intro c; rfl
  | cons d l ih =>
    intro c
    simp only [List.map_cons, numberedFrom_cons, ih (c + 1), readBackSecond_again h16 h8]

theorem numberedFrom_length (c : Nat) (l : List (KeyedSecond V K)) :
    (numberedFrom c l).length = l.length := by simp [numberedFrom]

theorem readBackFirst_length (r16 : V → V) (r8 : K → K) (withForces : Bool)
    (ds : List (KeyedFirst V K)) :
    ∀ i c : Nat, (readBackFirst r16 r8 withForces i c ds).length = ds.length := by
  induction ds with
  | nil => intro i c; rfl
  | cons d ds ih => intro i c; simp [readBackFirst, ih]

theorem readBackFirst_again {r16 : V → V} {r8 : K → K} (h16 : ∀ v, r16 (r16 v) = r16 v)
    (h8 : ∀ x, r8 (r8 x) = r8 x) (withForces : Bool) (ds : List (KeyedFirst V K)) :
    ∀ i c : Nat, readBackFirst r16 r8 withForces i c (readBackFirst r16 r8 withForces i c ds) =
      readBackFirst r16 r8 withForces i c ds := by
  induction ds with
  | nil => intro i c; rfl
  | cons d ds ih =>
    intro i c
    simp only [readBackFirst, numberedFrom_length, List.length_map, ih, numberedFrom_again h16 h8]
    congr 1
    cases withForces <;> cases hd : d.forces <;> cases he : d.energy <;> simp [h16, h8]

theorem numberedFrom_mem {c : Nat} {l : List (KeyedSecond V K)} {e : KeyedSecond V K}
    (h : e ∈ numberedFrom c l) : ∃ d ∈ l, ∃ i, e = { d with id := some i } := by
  simp only [numberedFrom, List.mem_map] at h
  obtain ⟨p, hp, rfl⟩ := h
  exact ⟨p.1, List.fst_mem_of_mem_zipIdx hp, p.2, rfl⟩

theorem idsRunFrom_numbered (c : Nat) (l : List (KeyedSecond V K)) :
    IdsRunFrom c (numberedFrom c l) := by
  induction l generalizing c with
  | nil => simp [IdsRunFrom, numberedFrom]
  | cons d l ih =>
    rw [numberedFrom_cons, idsRunFrom_cons]
    exact ⟨Or.inr rfl, ih (c + 1)⟩

theorem inAtomOrder_numbered {l : List (KeyedSecond V K)} (h : InAtomOrder l) (c : Nat) :
    InAtomOrder (numberedFrom c l) := by
  induction l generalizing c with
  | nil => simp [InAtomOrder, numberedFrom]
  | cons d l ih =>
    have hp := List.pairwise_cons.1 h
    rw [numberedFrom_cons]
    refine List.pairwise_cons.2 ⟨?_, ih hp.2 (c + 1)⟩
    intro e he
    obtain ⟨e', he', i, rfl⟩ := numberedFrom_mem he
    exact hp.1 e' he'

theorem firstInOrder_readBack (r16 : V → V) (r8 : K → K) (withForces : Bool)
    (ds : List (KeyedFirst V K)) :
    ∀ i c : Nat, FirstInOrder i c ds →
      FirstInOrder i c (readBackFirst r16 r8 withForces i c ds) := by
  induction ds with
  | nil => intro i c _; trivial
  | cons d ds ih =>
    intro i c h
    obtain ⟨-, h2, h3, h4, -, h6⟩ := h
    refine ⟨Or.inr rfl, ?_, ?_, ⟨?_, ?_⟩, idsRunFrom_numbered _ _, ?_⟩
    · intro he
      have := congrArg List.length he
      simp only [numberedFrom_length, List.length_map, List.length_nil] at this
      exact h2 (List.length_eq_zero_iff.1 this)
    · refine inAtomOrder_numbered ?_ c
      exact List.pairwise_map.2 h3
    · intro a ha
      obtain ⟨a', ha', i, rfl⟩ := numberedFrom_mem ha
      obtain ⟨x, hx, rfl⟩ := List.mem_map.1 ha'
      simpa [readBackSecond] using h4.1 x hx
    · intro a ha b hb hab
      obtain ⟨a', ha', i, rfl⟩ := numberedFrom_mem ha
      obtain ⟨x, hx, rfl⟩ := List.mem_map.1 ha'
      obtain ⟨b', hb', j, rfl⟩ := numberedFrom_mem hb
      obtain ⟨y, hy, rfl⟩ := List.mem_map.1 hb'
      obtain ⟨e1, e2, e3⟩ := h4.2 x hx y hy hab
      refine ⟨by simp [readBackSecond, e1], by simp [readBackSecond, e2, e3], ?_⟩
      cases withForces <;> simp [readBackSecond, e3]
    · rw [numberedFrom_length, List.length_map]
      exact ih (i + 1) (c + d.second.length) h6

/-- **C135**. What was loaded can be saved and loaded again without any change: the printed digits
are lost only once. -/
theorem C135_again (r16 : V → V) (r8 : K → K) (h16 : ∀ v, r16 (r16 v) = r16 v)
    (h8 : ∀ x, r8 (r8 x) = r8 x) (withForces : Bool) (ds loaded : KeyedDataset V K)
    (h : DatasetInOrder ds)
    (hl : (saveDataset r16 r8 withForces ds).bind (loadDataset ds.natom) = some loaded) :
    (saveDataset r16 r8 withForces loaded).bind (loadDataset ds.natom) = some loaded := by
  rw [C135_round_trip_partial r16 r8 withForces ds h, Option.some.injEq] at hl
  have hn : ds.natom = loaded.natom := by rw [← hl]; rfl
  have ho : DatasetInOrder loaded := by
    rw [← hl]
    refine ⟨?_, ?_⟩
    · intro he
      have := congrArg List.length he
      simp only [readBackDataset, readBackFirst_length, List.length_nil] at this
      exact h.1 (List.length_eq_zero_iff.1 this)
    · simp only [readBackDataset, readBackFirst_length]
      exact firstInOrder_readBack r16 r8 withForces ds.first 0 _ h.2
  rw [hn, C135_round_trip_partial r16 r8 withForces loaded ho, Option.some.injEq, ← hl]
  simp only [readBackDataset, readBackFirst_length, readBackFirst_again h16 h8]
  cases ds.cutoff <;> simp [h8]

/-! ## Displacements that phono3py makes -/

/-- Directions as `get_third_order_displacements` returns them: at least one first atom, each with
at least one second atom, second atoms strictly increasing, each with at least one direction. -/
def DirectionsInOrder {D : Type} (dirs : List (DirFirst D K)) : Prop :=
  dirs ≠ [] ∧ ∀ f ∈ dirs, f.second ≠ [] ∧
    f.second.Pairwise (fun a b => a.number < b.number) ∧ ∀ s ∈ f.second, s.directions ≠ []

/-- The entry of a dictionary for one pair (displacement_fc3.py:108-116). -/
def keyedSecond (d2 : Disp2 V K) : KeyedSecond V K :=
  { id := some d2.id
    number := d2.number
    displacement := d2.displacement
    pairDistance := some d2.pairDistance
    included := d2.included
    forces := d2.forces
    energy := d2.energy }

/-- The entry of a dictionary for one first atom (displacement_fc3.py:119-127). -/
def keyedFirst (d1 : Disp1 V K) : KeyedFirst V K :=
  { id := some d1.id
    number := d1.number
    displacement := d1.displacement
    forces := d1.forces
    energy := d1.energy
    second := d1.second.map keyedSecond }

/-- A pair with its numbers rounded to the printed digits. -/
def roundedSecond (r16 : V → V) (r8 : K → K) (d : Disp2 V K) : Disp2 V K :=
  { id := d.id
    number := d.number
    displacement := r16 d.displacement
    pairDistance := r8 d.pairDistance
    included := d.included
    forces := d.forces
    energy := d.energy }

/-- A first atom with its numbers rounded to the printed digits. -/
def roundedFirst (r16 : V → V) (r8 : K → K) (d : Disp1 V K) : Disp1 V K :=
  { id := d.id
    number := d.number
    displacement := r16 d.displacement
    forces := d.forces
    energy := d.energy
    second := d.second.map (roundedSecond r16 r8) }

section Created

variable {D : Type}

theorem stampDirections_mem {cart : D → V} {number : Nat} {dist : K} {inc : Option Bool}
    {ds : List D} : ∀ {c : Nat} {e : Disp2 V K}, e ∈ stampDirections cart number dist inc c ds →
      e.number = number ∧ e.pairDistance = dist ∧ e.included = inc ∧ e.forces = none ∧
        e.energy = none := by
  induction ds with
  | nil => intro c e h; simp [stampDirections] at h
  | cons d ds ih =>
    intro c e h
    rcases List.mem_cons.1 h with rfl | h
    · exact ⟨rfl, rfl, rfl, rfl, rfl⟩
    · exact ih h

theorem stampSecond_mem [LT K] [DecidableLT K] {cart : D → V} {cutoff : Option K}
    {ss : List (DirSecond D K)} : ∀ {c : Nat} {e : Disp2 V K}, e ∈ stampSecond cart cutoff c ss →
      ∃ s ∈ ss, e.number = s.number ∧ e.pairDistance = s.distance ∧
        e.included = cutoff.map (fun r => decide (s.distance < r)) ∧ e.forces = none ∧
        e.energy = none := by
  induction ss with
  | nil => intro c e h; simp [stampSecond] at h
  | cons s ss ih =>
    intro c e h
    rcases List.mem_append.1 h with h | h
    · exact ⟨s, by simp, stampDirections_mem h⟩
    · obtain ⟨t, ht, he⟩ := ih h
      exact ⟨t, by simp [ht], he⟩

theorem stampDirections_ordered (cart : D → V) (number : Nat) (dist : K) (inc : Option Bool)
    (ds : List D) : ∀ c : Nat,
      IdsRunFrom c ((stampDirections cart number dist inc (c + 1) ds).map keyedSecond) ∧
      (stampDirections cart number dist inc (c + 1) ds).length = ds.length := by
  induction ds with
  | nil => intro c; exact ⟨by simp [stampDirections, IdsRunFrom], rfl⟩
  | cons d ds ih =>
    intro c
    obtain ⟨h1, h2⟩ := ih (c + 1)
    refine ⟨?_, by simp [stampDirections, h2]⟩
    rw [stampDirections, List.map_cons, idsRunFrom_cons]
    exact ⟨Or.inr rfl, h1⟩

theorem stampSecond_ordered [LT K] [DecidableLT K] (cart : D → V) (cutoff : Option K)
    (ss : List (DirSecond D K)) : ∀ c : Nat,
      IdsRunFrom c ((stampSecond cart cutoff (c + 1) ss).map keyedSecond) ∧
      (stampSecond cart cutoff (c + 1) ss).length = (ss.map (fun s => s.directions.length)).sum := by
  induction ss with
  | nil => intro c; exact ⟨by simp [stampSecond, IdsRunFrom], rfl⟩
  | cons s ss ih =>
    intro c
    obtain ⟨h1, h2⟩ := stampDirections_ordered cart s.number s.distance
      (cutoff.map (fun r => decide (s.distance < r))) s.directions c
    obtain ⟨h3, h4⟩ := ih (c + s.directions.length)
    rw [Nat.add_right_comm] at h3 h4
    refine ⟨?_, by simp [stampSecond, h2, h4]⟩
    rw [stampSecond, List.map_append, idsRunFrom_append, List.length_map, h2]
    exact ⟨h1, h3⟩

theorem stampSecond_inOrder [LT K] [DecidableLT K] (cart : D → V) (cutoff : Option K)
    (ss : List (DirSecond D K)) (h : ss.Pairwise (fun a b => a.number < b.number)) : ∀ c : Nat,
      InAtomOrder ((stampSecond cart cutoff c ss).map keyedSecond) := by
  induction ss with
  | nil => intro c; simp [stampSecond, InAtomOrder]
  | cons s ss ih =>
    intro c
    have hp := List.pairwise_cons.1 h
    rw [stampSecond, List.map_append]
    refine List.pairwise_append.2 ⟨?_, ih hp.2 _, ?_⟩
    · rw [List.pairwise_map]
      refine List.Pairwise.imp_of_mem ?_ (List.pairwise_of_forall (fun _ _ => trivial))
      intro a b ha hb _
      exact le_of_eq ((stampDirections_mem ha).1.trans (stampDirections_mem hb).1.symm)
    · intro a ha b hb
      obtain ⟨a', ha', rfl⟩ := List.mem_map.1 ha
      obtain ⟨b', hb', rfl⟩ := List.mem_map.1 hb
      obtain ⟨t, ht, hbt⟩ := stampSecond_mem hb'
      have := hp.1 t ht
      show a'.number ≤ b'.number
      rw [(stampDirections_mem ha').1, hbt.1]
      exact this.le

theorem number_injective_of_sorted {ss : List (DirSecond D K)}
    (h : ss.Pairwise (fun a b => a.number < b.number)) {s t : DirSecond D K} (hs : s ∈ ss)
    (ht : t ∈ ss) (he : s.number = t.number) : s = t := by
  induction ss with
  | nil => simp at hs
  | cons x ss ih =>
    have hp := List.pairwise_cons.1 h
    rcases List.mem_cons.1 hs with h1 | h1 <;> rcases List.mem_cons.1 ht with h2 | h2
    · exact h1.trans h2.symm
    · have := hp.1 t h2; rw [h1] at he; omega
    · have := hp.1 s h1; rw [h2] at he; omega
    · exact ih hp.2 h1 h2

theorem stampFirst_ordered [LT K] [DecidableLT K] (cart : D → V) (cutoff : Option K)
    (dirs : List (DirFirst D K)) (h : ∀ f ∈ dirs, f.second ≠ [] ∧
      f.second.Pairwise (fun a b => a.number < b.number) ∧ ∀ s ∈ f.second, s.directions ≠ []) :
    ∀ i c : Nat, FirstInOrder i c ((stampFirst cart cutoff i (c + 1) dirs).map keyedFirst) := by
  induction dirs with
  | nil => intro i c; trivial
  | cons f dirs ih =>
    intro i c
    obtain ⟨h1, h2, h3⟩ := h f (by simp)
    obtain ⟨o1, o2⟩ := stampSecond_ordered cart cutoff f.second c
    refine ⟨Or.inr rfl, ?_, stampSecond_inOrder cart cutoff f.second h2 _, ⟨?_, ?_⟩, o1, ?_⟩
    · intro he
      have hlen := congrArg List.length he
      simp only [keyedFirst] at hlen
      rw [List.length_map, o2, List.length_nil] at hlen
      cases hs : f.second with
      | nil => exact h1 hs
      | cons s ss =>
        rw [hs, List.map_cons, List.sum_cons] at hlen
        have : s.directions.length = 0 := by omega
        exact h3 s (by simp [hs]) (List.length_eq_zero_iff.1 this)
    · intro a ha
      obtain ⟨x, -, rfl⟩ := List.mem_map.1 ha
      rfl
    · intro a ha b hb hab
      obtain ⟨x, hx, rfl⟩ := List.mem_map.1 ha
      obtain ⟨y, hy, rfl⟩ := List.mem_map.1 hb
      obtain ⟨s, hs, s1, s2, s3, s4, -⟩ := stampSecond_mem hx
      obtain ⟨t, ht, t1, t2, t3, t4, -⟩ := stampSecond_mem hy
      have hst : s = t := number_injective_of_sorted h2 hs ht (by
        rw [← s1, ← t1]; exact hab)
      subst hst
      exact ⟨by simp [keyedSecond, s2, t2], by simp [keyedSecond, s3, t3],
        by simp [keyedSecond, s4, t4]⟩
    · have ih2 := ih (fun g hg => h g (by simp [hg])) (i + 1)
        (c + (f.second.map (fun s => s.directions.length)).sum)
      rw [Nat.add_right_comm] at ih2
      simp only [keyedFirst] at ih2 ⊢
      rw [List.length_map, o2]
      exact ih2

theorem stampFirst_mem [LT K] [DecidableLT K] {cart : D → V} {cutoff : Option K}
    {dirs : List (DirFirst D K)} : ∀ {i c : Nat} {e : Disp1 V K},
      e ∈ stampFirst cart cutoff i c dirs → e.forces = none ∧ e.energy = none ∧
        ∀ d ∈ e.second, d.forces = none ∧ d.energy = none := by
  induction dirs with
  | nil => intro i c e h; simp [stampFirst] at h
  | cons f dirs ih =>
    intro i c e h
    rcases List.mem_cons.1 h with rfl | h
    · refine ⟨rfl, rfl, ?_⟩
      intro d hd
      obtain ⟨s, -, -, -, -, h4, h5⟩ := stampSecond_mem hd
      exact ⟨h4, h5⟩
    · exact ih h

theorem readBack_keyed_second (r16 : V → V) (r8 : K → K) (withForces : Bool)
    (l : List (Disp2 V K)) (hl : ∀ d ∈ l, d.forces = none ∧ d.energy = none) :
    ∀ c : Nat, IdsRunFrom c (l.map keyedSecond) →
      numberedFrom c ((l.map keyedSecond).map (readBackSecond r16 r8 withForces)) =
        (l.map (roundedSecond r16 r8)).map keyedSecond := by
  induction l with
  | nil => intro c _; rfl
  | cons d l ih =>
    intro c hid
    rw [List.map_cons, idsRunFrom_cons] at hid
    obtain ⟨h1, h2⟩ := hl d (by simp)
    have hd : d.id = c + 1 := by
      rcases hid.1 with h | h
      · simp [keyedSecond] at h
      · simpa [keyedSecond] using h
    simp only [List.map_cons, numberedFrom_cons, ih (fun e he => hl e (by simp [he])) (c + 1) hid.2]
    congr 1
    cases withForces <;> simp [readBackSecond, keyedSecond, roundedSecond, h1, h2, hd]

theorem readBack_keyed_first (r16 : V → V) (r8 : K → K) (withForces : Bool)
    (l : List (Disp1 V K)) (hl : ∀ e ∈ l, e.forces = none ∧ e.energy = none ∧
        ∀ d ∈ e.second, d.forces = none ∧ d.energy = none) :
    ∀ i c : Nat, FirstInOrder i c (l.map keyedFirst) →
      readBackFirst r16 r8 withForces i c (l.map keyedFirst) =
      (l.map (roundedFirst r16 r8)).map keyedFirst := by
  induction l with
  | nil => intro i c _; rfl
  | cons d l ih =>
    intro i c h
    obtain ⟨h1, -, -, -, h5, h6⟩ := h
    obtain ⟨f1, f2, f3⟩ := hl d (by simp)
    have hd : d.id = i + 1 := by
      rcases h1 with h | h
      · simp [keyedFirst] at h
      · simpa [keyedFirst] using h
    have ih2 := ih (fun e he => hl e (by simp [he])) (i + 1) _ h6
    have h7 := readBack_keyed_second r16 r8 withForces d.second f3 c h5
    simp only [List.map_cons, readBackFirst, ih2]
    congr 1
    have h8 : numberedFrom c ((keyedFirst d).second.map (readBackSecond r16 r8 withForces)) =
        (keyedFirst (roundedFirst r16 r8 d)).second := h7
    rw [h8]
    cases withForces <;> simp [keyedFirst, roundedFirst, f1, f2, hd]

/-- **C135**. Displacements made by `Phono3py.generate_displacements` are in order, so they come
back from phono3py.yaml, with the marks `included`. -/
theorem C135_generated [AddGroup D] [DecidableEq D] [LT K] [DecidableLT K] (cart : D → V)
    (natom : Nat) (cutoff : Option K) (dirs : List (DirFirst D K)) (ds : DispDataset V K)
    (hd : DirectionsInOrder dirs) (h : directionToDisplacement cart natom cutoff dirs = some ds)
    (r16 : V → V) (r8 : K → K) (withForces : Bool) :
    DatasetInOrder (keyedDataset ds) ∧
    (saveDataset r16 r8 withForces (keyedDataset ds)).bind (loadDataset natom) =
      some (keyedDataset
        { ds with
          cutoff := ds.cutoff.map r8
          first := ds.first.map (roundedFirst r16 r8) }) := by
  have hnf : ds.natom = natom ∧ ds.first = stampFirst cart cutoff 0 (dirs.length + 1) dirs := by
    unfold directionToDisplacement at h
    cases hdup : findDuplicates dirs with
    | none => simp [hdup] at h
    | some l =>
      simp only [hdup, Option.map_some, Option.some.injEq] at h
      subst h
      exact ⟨rfl, rfl⟩
  obtain ⟨hn, hf⟩ := hnf
  have hlen : ∀ i c : Nat, (stampFirst cart cutoff i c dirs).length = dirs.length := by
    have : ∀ (l : List (DirFirst D K)) (i c : Nat), (stampFirst cart cutoff i c l).length = l.length := by
      intro l
      induction l with
      | nil => intro i c; rfl
      | cons f l ih => intro i c; simp [stampFirst, ih]
    exact this dirs
  have ho : DatasetInOrder (keyedDataset ds) := by
    refine ⟨?_, ?_⟩
    · intro he
      have := congrArg List.length he
      simp only [keyedDataset, List.length_map, List.length_nil] at this
      have h2 := hlen 0 (dirs.length + 1)
      rw [← hf, this] at h2
      exact hd.1 (List.length_eq_zero_iff.1 h2.symm)
    · have h2 := hlen 0 (dirs.length + 1)
      rw [← hf] at h2
      have h3 := stampFirst_ordered cart cutoff dirs hd.2 0 dirs.length
      rw [← hf] at h3
      simp only [keyedDataset, List.length_map, h2]
      exact h3
  refine ⟨ho, ?_⟩
  have hnat : natom = (keyedDataset ds).natom := hn.symm
  rw [hnat, C135_round_trip_partial r16 r8 withForces _ ho]
  have hmem : ∀ e ∈ ds.first, e.forces = none ∧ e.energy = none ∧
        ∀ d ∈ e.second, d.forces = none ∧ d.energy = none := by
    intro e he
    rw [hf] at he
    exact stampFirst_mem he
  have hb := readBack_keyed_first r16 r8 withForces ds.first hmem 0 _ ho.2
  rw [Option.some.injEq]
  show KeyedDataset.mk _ _ _ _ = KeyedDataset.mk _ _ _ _
  congr 1

end Created

/-! ## The summary in the file -/

theorem included_counts [Add V] (pos : Nat → V) (n : Nat) (u : V) (l : List (Disp2 V K)) :
    ((l.map keyedSecond).filter (fun d => d.included.getD true)).length =
      ((l.map (fun d2 => if d2.included.getD true then
        some (moveAtom (moveAtom pos n u) d2.number d2.displacement)
      else none)).filter Option.isSome).length := by
  induction l with
  | nil => rfl
  | cons d l ih =>
    rw [List.map_cons, List.map_cons]
    by_cases h : d.included.getD true = true
    · rw [List.filter_cons_of_pos (by simpa [keyedSecond] using h), if_pos h,
        List.filter_cons_of_pos (by rfl), List.length_cons, List.length_cons, ih]
    · rw [List.filter_cons_of_neg (by simpa [keyedSecond] using h), if_neg h,
        List.filter_cons_of_neg (by simp), ih]

/-- **C135**. The numbers in the summary `displacement_pair_info` count supercells: singles and
pairs together are all supercells with displacements, singles and pairs in the cutoff those that
have to be calculated. -/
theorem C135_summary [Add V] (r16 : V → V) (r8 : K → K) (withForces : Bool)
    (ds : DispDataset V K) (pos : Nat → V) (y : YamlDataset V K)
    (h : saveDataset r16 r8 withForces (keyedDataset ds) = some y) :
    y.singles + y.pairCount = (buildSupercells pos ds).length ∧
      ∀ n, y.pairsInCutoff = some n →
        y.singles + n = ((buildSupercells pos ds).filter Option.isSome).length := by
  unfold saveDataset at h
  split at h
  · simp at h
  · rw [Option.map_eq_some_iff] at h
    obtain ⟨ps, -, rfl⟩ := h
    have hs : (keyedDataset ds).first.flatMap (fun d => d.second) =
        ds.first.flatMap (fun d => d.second.map keyedSecond) := by
      simp only [keyedDataset, List.flatMap_map]
      rfl
    refine ⟨?_, ?_⟩
    · simp only [hs, buildSupercells, buildFirst, List.length_append, List.length_map,
        List.length_flatMap]
      simp [keyedDataset]
    · intro n hn
      simp only [Option.map_eq_some_iff] at hn
      obtain ⟨-, -, rfl⟩ := hn
      rw [hs, buildSupercells, List.filter_append, List.length_append]
      have h1 : ((buildFirst pos ds).map some).filter Option.isSome = (buildFirst pos ds).map some := by
        rw [List.filter_eq_self]
        intro a ha
        obtain ⟨b, -, rfl⟩ := List.mem_map.1 ha
        rfl
      rw [h1]
      simp only [List.length_map, buildFirst, keyedDataset, Nat.add_left_cancel_iff]
      induction ds.first with
      | nil => rfl
      | cons d l ih =>
        simp only [List.flatMap_cons, List.filter_append, List.length_append, ih,
          included_counts pos d.number d.displacement]

/-! ## What the file does not hold -/

/-- **C135**, a defect. A file with forces does not hold the marks `included`: in a loaded dataset
no pair with forces is marked, whatever it was before, and pairs without a mark count as
included. -/
theorem C135_included_lost (r16 : V → V) (r8 : K → K) (ds loaded : KeyedDataset V K)
    (h : DatasetInOrder ds) (hf : ∀ d1 ∈ ds.first, ∀ d2 ∈ d1.second, d2.forces.isSome)
    (hl : (saveDataset r16 r8 true ds).bind (loadDataset ds.natom) = some loaded) :
    ∀ d1 ∈ loaded.first, ∀ d2 ∈ d1.second, d2.included = none := by
  rw [C135_round_trip_partial r16 r8 true ds h, Option.some.injEq] at hl
  have key : ∀ (l : List (KeyedFirst V K)) (i c : Nat),
      (∀ d1 ∈ l, ∀ d2 ∈ d1.second, d2.forces.isSome) →
      ∀ d1 ∈ readBackFirst r16 r8 true i c l, ∀ d2 ∈ d1.second, d2.included = none := by
    intro l
    induction l with
    | nil => intro i c _ d1 h1; simp [readBackFirst] at h1
    | cons d l ih =>
      intro i c hl d1 h1
      rcases List.mem_cons.1 h1 with rfl | h1
      · intro d2 h2
        obtain ⟨e, he, j, rfl⟩ := numberedFrom_mem h2
        obtain ⟨x, hx, rfl⟩ := List.mem_map.1 he
        simp [readBackSecond, hl d (by simp) x hx]
      · exact ih _ _ (fun a ha => hl a (by simp [ha])) d1 h1
  rw [← hl]
  exact key ds.first _ _ hf

/-- One first atom with two pairs; the second pair is beyond the cutoff and was not calculated, so
that its forces are zero. -/
def cutoffDataset : DispDataset Int Nat :=
  { natom := 2
    duplicates := [(3, 0)]
    cutoff := some 4
    first := [
      { id := 1
        number := 0
        displacement := 3
        forces := some [-5, 5]
        energy := some 7
        second := [⟨2, 0, 3, 1, some true, some [-6, 6], some 8⟩,
          ⟨3, 1, -3, 9, some false, some [0, 0], some 0⟩] }] }

/-- The same dataset without the marks. -/
def cutoffDatasetLoaded : DispDataset Int Nat :=
  { natom := 2
    duplicates := [(3, 0)]
    cutoff := some 4
    first := [
      { id := 1
        number := 0
        displacement := 3
        forces := some [-5, 5]
        energy := some 7
        second := [⟨2, 0, 3, 1, none, some [-6, 6], some 8⟩,
          ⟨3, 1, -3, 9, none, some [0, 0], some 0⟩] }] }

/-- **C135**, the consequence. A dataset with a cutoff that is saved with forces and loaded hands
the zero forces of the supercell that was never calculated to the fit of force constants: there are
three rows of displacements and forces instead of two. -/
theorem C135_zero_forces_used :
    (saveDataset id id true (keyedDataset cutoffDataset)).bind (loadDataset 2) =
        some (keyedDataset cutoffDatasetLoaded) ∧
      (displacementsAndForces cutoffDataset).map (fun r => (r.1.length, r.2)) =
        some (2, some [[-5, 5], [-6, 6]]) ∧
      (displacementsAndForces cutoffDatasetLoaded).map (fun r => (r.1.length, r.2)) =
        some (3, some [[-5, 5], [-6, 6], [0, 0]]) :=
  ⟨rfl, rfl, rfl⟩

/-- The dataset with a cutoff is in order, so that `C135_round_trip_partial`, `C135_again` and
`C135_included_lost` speak about it. -/
theorem cutoffDataset_inOrder : DatasetInOrder (keyedDataset cutoffDataset) := by
  refine ⟨by simp [keyedDataset, cutoffDataset], Or.inr rfl, by simp, ?_, ⟨?_, ?_⟩, ?_, trivial⟩
  · simp [InAtomOrder]
  · simp
  · simp
  · simp [IdsRunFrom, List.zipIdx_cons, keyedDataset, cutoffDataset]

example : (saveDataset id id true (keyedDataset cutoffDataset)).bind (loadDataset 2) =
    some (readBackDataset id id true (keyedDataset cutoffDataset)) :=
  C135_round_trip_partial id id true _ cutoffDataset_inOrder

/-- A dataset without ids, as one made by hand, whose second atoms do not come in increasing
order. -/
def unorderedDataset (ids : Bool) : KeyedDataset Int Nat :=
  { natom := 2
    duplicates := []
    cutoff := none
    first := [
      { id := none
        number := 0
        displacement := 3
        forces := none
        energy := none
        second := [⟨if ids then some 2 else none, 1, 3, some 9, none, none, none⟩,
          ⟨if ids then some 3 else none, 0, 4, some 1, none, none, none⟩] }] }

/-- **C135**, second atoms in another order. Without ids the pairs silently come back in another
order than the supercells that were calculated; with ids the dataset cannot be saved. -/
theorem C135_unordered :
    ((saveDataset id id false (unorderedDataset false)).bind (loadDataset 2)).map
        (fun ds => ds.first.map (fun d1 => d1.second.map (fun d2 => (d2.id, d2.number)))) =
      some [[(some 2, 0), (some 3, 1)]] ∧
    (saveDataset id id false (unorderedDataset true)).isNone :=
  ⟨rfl, rfl⟩

/-- **C135**, a first atom without pairs. The file can be written but not read. -/
theorem C135_no_pairs (r16 : V → V) (r8 : K → K) (withForces : Bool) (natom number : Nat)
    (u : V) :
    ∃ y, saveDataset r16 r8 withForces
        (⟨natom, [], none, [⟨some 1, number, u, none, none, []⟩]⟩ : KeyedDataset V K) = some y ∧
      loadDataset natom y = none := by
  refine ⟨_, rfl, ?_⟩
  simp [loadDataset, loadFirst, idAccepted]

/-- Directions of one first atom with two second atoms, with a cutoff between their distances. -/
def twoPairs : List (DirFirst Int Nat) :=
  [⟨0, 1, [⟨0, 1, [1, -1]⟩, ⟨3, 9, [1]⟩]⟩]

example : DirectionsInOrder twoPairs ∧
    ((directionToDisplacement (fun d => 3 * d) 4 (some 4) twoPairs).map
      (fun ds => ds.first.map (fun d1 => d1.second.map (fun d2 => (d2.id, d2.included)))) =
      some [[(2, some true), (3, some true), (4, some false)]]) := by
  refine ⟨⟨by simp [twoPairs], ?_⟩, by decide +kernel⟩
  intro f hf
  simp only [twoPairs, List.mem_singleton] at hf
  subst hf
  refine ⟨by simp, by simp, ?_⟩
  intro s hs
  simp only [List.mem_cons, List.not_mem_nil, or_false] at hs
  rcases hs with rfl | rfl <;> simp

end Phono3py.Props
