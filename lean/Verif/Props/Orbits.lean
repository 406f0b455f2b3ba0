import Verif.Model.Orbits
import Verif.Lemmas.Isotope
import Mathlib.Data.List.GetD
import Mathlib.Tactic.Ring

/-!
# Representatives of the second atoms (C58)
-/

namespace Phono3py

/-- The operations `rots` permute the atoms: operation `r` takes atom `x` to atom `σ r x` and to no
other, and these permutations form a group. -/
structure SiteGroup {P R : Type} (near : P → P → Bool) (turn : R → P → P) (positions : List P)
    (rots : List R) (σ : R → Nat → Nat) : Prop where
  acts : ∀ r ∈ rots, ∀ x y p q, positions[x]? = some p → positions[y]? = some q →
    (near q (turn r p) = true ↔ y = σ r x)
  mem : ∀ r ∈ rots, ∀ x < positions.length, σ r x < positions.length
  one : ∃ e ∈ rots, ∀ x < positions.length, σ e x = x
  mul : ∀ r ∈ rots, ∀ s ∈ rots, ∃ t ∈ rots, ∀ x < positions.length, σ t x = σ r (σ s x)
  inv : ∀ r ∈ rots, ∃ t ∈ rots, ∀ x < positions.length, σ t (σ r x) = x

/-- Atoms `x` and `y` are equivalent: an operation takes `x` to `y`. -/
def SameOrbit {R : Type} (rots : List R) (σ : R → Nat → Nat) (x y : Nat) : Prop :=
  ∃ r ∈ rots, σ r x = y

namespace Props

variable {P R : Type} {near : P → P → Bool} {turn : R → P → P} {positions : List P}
  {rots : List R} {σ : R → Nat → Nat}

theorem findAtom (h : SiteGroup near turn positions rots σ) {r : R} (hr : r ∈ rots) {x : Nat} {p : P}
    (hp : positions[x]? = some p) :
    positions.findIdx? (fun q => near q (turn r p)) = some (σ r x) := by
  obtain ⟨hx, hxp⟩ := List.getElem?_eq_some_iff.1 hp
  have hy := h.mem r hr x hx
  rw [List.findIdx?_eq_some_iff_getElem]
  refine ⟨hy, (h.acts r hr x (σ r x) p _ hp (List.getElem?_eq_getElem hy)).2 rfl, ?_⟩
  intro j hj hc
  have := (h.acts r hr x j p _ hp (List.getElem?_eq_getElem (by omega))).1 hc
  omega

/-- Successive images of atom `x`: each operation is applied to the image under the previous
ones. -/
def successive (σ : R → Nat → Nat) : List R → Nat → List Nat
  | [], _ => []
  | r :: rs, x => σ r x :: successive σ rs (σ r x)

theorem orbit_fold (h : SiteGroup near turn positions rots σ) (rs : List R)
    (hrs : ∀ r ∈ rs, r ∈ rots) (x : Nat) (p : P) (hp : positions[x]? = some p) (acc : List Nat) :
    (rs.foldl (orbitStep near turn positions) (p, acc)).2 = acc ++ successive σ rs x := by
  induction rs generalizing x p acc with
  | nil => simp [successive]
  | cons r rs ih =>
    have hr := hrs r (by simp)
    obtain ⟨hx, -⟩ := List.getElem?_eq_some_iff.1 hp
    have hy := h.mem r hr x hx
    rw [List.foldl_cons]
    have hstep : orbitStep near turn positions (p, acc) r = (positions[σ r x], acc ++ [σ r x]) := by
      unfold orbitStep
      rw [findAtom h hr hp]
      simp only [List.getD_eq_getElem _ _ hy]
    rw [hstep, ih (fun s hs => hrs s (by simp [hs])) (σ r x) _ (List.getElem?_eq_getElem hy)]
    simp [successive]

theorem successive_length (rs : List R) (x : Nat) : (successive σ rs x).length = rs.length := by
  induction rs generalizing x with
  | nil => rfl
  | cons r rs ih => simp [successive, ih]

theorem orbitRow_eq (h : SiteGroup near turn positions rots σ) (x : Nat) (p : P)
    (hp : positions[x]? = some p) :
    orbitRow near turn positions rots p = some (successive σ rots x) := by
  unfold orbitRow
  rw [orbit_fold h rots (fun r hr => hr) x p hp []]
  simp [successive_length]

theorem mapM_rows (h : SiteGroup near turn positions rots σ) (l : List P) (i : Nat)
    (hl : ∀ j, l[j]? = positions[i + j]? ∨ l.length ≤ j) :
    l.mapM (orbitRow near turn positions rots) =
      some ((List.range' i l.length).map (successive σ rots)) := by
  induction l generalizing i with
  | nil => rfl
  | cons p l ih =>
    have h0 : positions[i]? = some p := by
      rcases hl 0 with h0 | h0
      · simpa using h0.symm
      · simp at h0
    rw [List.mapM_cons, orbitRow_eq h i p h0, ih (i + 1)]
    · rfl
    · intro j
      rcases hl (j + 1) with hj | hj
      · left
        rw [List.getElem?_cons_succ] at hj
        rw [hj]
        congr 1
        omega
      · right
        simpa using hj

theorem getOrbits_eq (h : SiteGroup near turn positions rots σ) :
    getOrbits near turn positions rots =
      some ((List.range positions.length).map (successive σ rots)) := by
  unfold getOrbits
  rw [mapM_rows h positions 0 (fun j => Or.inl (by simp)), List.range_eq_range']

theorem same_refl (h : SiteGroup near turn positions rots σ) {x : Nat} (hx : x < positions.length) :
    SameOrbit rots σ x x := by
  obtain ⟨e, he, h1⟩ := h.one
  exact ⟨e, he, h1 x hx⟩

theorem same_symm (h : SiteGroup near turn positions rots σ) {x y : Nat} (hx : x < positions.length)
    (hs : SameOrbit rots σ x y) : SameOrbit rots σ y x := by
  obtain ⟨r, hr, rfl⟩ := hs
  obtain ⟨t, ht, h1⟩ := h.inv r hr
  exact ⟨t, ht, h1 x hx⟩

theorem same_trans (h : SiteGroup near turn positions rots σ) {x y z : Nat}
    (hx : x < positions.length) (h1 : SameOrbit rots σ x y) (h2 : SameOrbit rots σ y z) :
    SameOrbit rots σ x z := by
  obtain ⟨r, hr, rfl⟩ := h1
  obtain ⟨s, hs, rfl⟩ := h2
  obtain ⟨t, ht, h3⟩ := h.mul s hs r hr
  exact ⟨t, ht, h3 x hx⟩

theorem same_lt (h : SiteGroup near turn positions rots σ) {x y : Nat} (hx : x < positions.length)
    (hs : SameOrbit rots σ x y) : y < positions.length := by
  obtain ⟨r, hr, rfl⟩ := hs
  exact h.mem r hr x hx

theorem successive_same (h : SiteGroup near turn positions rots σ) (rs : List R)
    (hrs : ∀ r ∈ rs, r ∈ rots) {x : Nat} (hx : x < positions.length) :
    ∀ y ∈ successive σ rs x, SameOrbit rots σ x y := by
  induction rs generalizing x with
  | nil => simp [successive]
  | cons r rs ih =>
    have hr := hrs r (by simp)
    intro y hy
    rcases List.mem_cons.1 hy with rfl | hy
    · exact ⟨r, hr, rfl⟩
    · exact same_trans h hx ⟨r, hr, rfl⟩
        (ih (fun s hs => hrs s (by simp [hs])) (h.mem r hr x hx) y hy)

/-- One pass over the elements `ks` of row `i`. -/
theorem relabel_fold (i : Nat) (ks : List Nat) (m : Nat → Nat) :
    let m' := ks.foldl
      (fun m num => if m i < m num then fun k => if k = num then m i else m k else m) m
    m' i = m i ∧ ∀ y, m' y = if y ∈ ks then min (m y) (m i) else m y := by
  induction ks generalizing m with
  | nil => simp
  | cons k ks ih =>
    simp only [List.foldl_cons]
    have hi : (if m i < m k then fun x => if x = k then m i else m x else m) i = m i := by
      split
      · rename_i hlt
        have : i ≠ k := by rintro rfl; exact lt_irrefl _ hlt
        simp [this]
      · rfl
    have := ih (if m i < m k then fun x => if x = k then m i else m x else m)
    simp only [hi] at this
    refine ⟨this.1, fun y => ?_⟩
    rw [this.2 y]
    by_cases hy : y = k
    · subst hy
      by_cases hlt : m i < m y
      · simp [hlt, le_of_lt hlt]
      · simp only [if_neg hlt, List.mem_cons, true_or, if_true]
        split
        · rfl
        · rw [min_eq_left (by omega)]
    · have hk : (if m i < m k then fun x => if x = k then m i else m x else m) y = m y := by
        split <;> simp [hy]
      rw [hk]
      simp [hy]

theorem relabelRow_eq (n : Nat) (m : Nat → Nat) (i : Nat) (row : List Nat)
    (hrow : ∀ y ∈ row, y < n) (y : Nat) :
    relabelRow n m (i, row) y = if y ∈ row then min (m y) (m i) else m y := by
  unfold relabelRow
  rw [(relabel_fold i _ m).2 y]
  by_cases hy : y ∈ row
  · rw [if_pos hy, if_pos]
    simp [hy, hrow y hy]
  · rw [if_neg hy, if_neg]
    simp [hy]

/-- Labels after the first `k` rows. -/
def labelsUpTo (n : Nat) (row : Nat → List Nat) : Nat → Nat → Nat
  | 0 => id
  | k + 1 => relabelRow n (labelsUpTo n row k) (k, row k)

theorem orbitLabels_eq (n : Nat) (row : Nat → List Nat) :
    orbitLabels n ((List.range n).map row) = labelsUpTo n row n := by
  unfold orbitLabels
  have : ((((List.range n).map row).zipIdx).map (fun p => (p.2, p.1))) =
      (List.range n).map (fun i => (i, row i)) := by
    apply List.ext_getElem
    · simp
    · intro i h1 h2
      simp
  rw [this]
  have key : ∀ k, ((List.range k).map (fun i => (i, row i))).foldl (relabelRow n) id =
      labelsUpTo n row k := by
    intro k
    induction k with
    | zero => rfl
    | succ k ih => rw [List.range_succ, List.map_append, List.foldl_append, ih]; rfl
  exact key n

theorem row_lt (h : SiteGroup near turn positions rots σ) {x : Nat} (hx : x < positions.length) :
    ∀ y ∈ successive σ rots x, y < positions.length := fun y hy =>
  same_lt h hx (successive_same h rots (fun r hr => hr) hx y hy)

theorem labels_inv (h : SiteGroup near turn positions rots σ) (k : Nat) (hk : k ≤ positions.length)
    (y : Nat) (hy : y < positions.length) :
    SameOrbit rots σ (labelsUpTo positions.length (successive σ rots) k y) y ∧
      labelsUpTo positions.length (successive σ rots) k y ≤ y := by
  induction k generalizing y with
  | zero => exact ⟨same_refl h hy, le_refl _⟩
  | succ k ih =>
    have hk' : k < positions.length := hk
    rw [labelsUpTo, relabelRow_eq _ _ _ _ (row_lt h hk')]
    by_cases hm : y ∈ successive σ rots k
    · rw [if_pos hm]
      have hy' := ih (by omega) y hy
      have hk2 := ih (by omega) k hk'
      refine ⟨?_, le_trans (min_le_left _ _) hy'.2⟩
      rcases min_choice (labelsUpTo positions.length (successive σ rots) k y)
        (labelsUpTo positions.length (successive σ rots) k k) with h1 | h1
      · rw [h1]; exact hy'.1
      · rw [h1]
        exact same_trans h (lt_of_le_of_lt hk2.2 hk') hk2.1
          (successive_same h rots (fun r hr => hr) hk' y hm)
    · rw [if_neg hm]
      exact ih (by omega) y hy

theorem leastOrbits_eq (h : SiteGroup near turn positions rots σ) :
    ∃ l, leastOrbits near turn positions rots = some l ∧ l.Nodup ∧
      ∀ v, v ∈ l ↔ ∃ y < positions.length,
        labelsUpTo positions.length (successive σ rots) positions.length y = v := by
  refine ⟨_, by rw [leastOrbits, getOrbits_eq h]; rfl, ?_, ?_⟩
  · exact List.Nodup.filter _ List.nodup_range
  · intro v
    simp only [orbitLabels_eq]
    simp only [List.mem_filter, List.mem_range, List.any_eq_true, beq_iff_eq]
    constructor
    · rintro ⟨-, y, hy, hv⟩
      exact ⟨y, hy, hv⟩
    · rintro ⟨y, hy, rfl⟩
      have := labels_inv h positions.length (le_refl _) y hy
      exact ⟨lt_of_le_of_lt this.2 hy, y, hy, rfl⟩

theorem orbitStep_le (s : P × List Nat) (r : R) :
    (orbitStep near turn positions s r).2.length ≤ s.2.length + 1 := by
  unfold orbitStep
  cases positions.findIdx? (fun q => near q (turn r s.1)) <;> simp

theorem orbit_fold_le (rs : List R) (s : P × List Nat) :
    (rs.foldl (orbitStep near turn positions) s).2.length ≤ s.2.length + rs.length := by
  induction rs generalizing s with
  | nil => simp
  | cons r rs ih =>
    have h1 := ih (orbitStep near turn positions s r)
    have h2 := orbitStep_le (near := near) (turn := turn) (positions := positions) s r
    simp only [List.foldl_cons, List.length_cons]
    omega

theorem orbitStep_mem (s : P × List Nat) (hs : s.1 ∈ positions) (r : R) :
    (orbitStep near turn positions s r).1 ∈ positions := by
  unfold orbitStep
  cases h : positions.findIdx? (fun q => near q (turn r s.1)) with
  | none =>
    cases positions with
    | nil => simp at hs
    | cons a l => simp [List.getLastD]
  | some i =>
    obtain ⟨hi, -⟩ := List.findIdx?_eq_some_iff_getElem.1 h
    simp [List.getD, List.getElem?_eq_getElem hi]

theorem orbit_fold_lt (rs : List R) (s : P × List Nat) (hs : s.1 ∈ positions)
    (hr : ∃ r ∈ rs, ∀ p ∈ positions, ∀ q ∈ positions, near q (turn r p) = false) :
    (rs.foldl (orbitStep near turn positions) s).2.length < s.2.length + rs.length := by
  induction rs generalizing s with
  | nil => simp at hr
  | cons r rs ih =>
    simp only [List.foldl_cons, List.length_cons]
    have h2 := orbitStep_le (near := near) (turn := turn) (positions := positions) s r
    obtain ⟨t, ht, hn⟩ := hr
    rcases List.mem_cons.1 ht with rfl | ht
    · have h1 := orbit_fold_le (near := near) (turn := turn) (positions := positions) rs
        (orbitStep near turn positions s t)
      have h3 : positions.findIdx? (fun q => near q (turn t s.1)) = none := by
        rw [List.findIdx?_eq_none_iff]
        exact fun q hq => hn _ hs q hq
      have h4 : (orbitStep near turn positions s t).2 = s.2 := by
        unfold orbitStep
        rw [h3]
      rw [h4] at h1
      omega
    · have := ih (orbitStep near turn positions s r) (orbitStep_mem s hs r) ⟨t, ht, hn⟩
      omega

/-- C58: an operation that takes every atom to an empty place is reported as an error. -/
theorem C58_failure (hne : positions ≠ []) {r : R} (hr : r ∈ rots)
    (hn : ∀ p ∈ positions, ∀ q ∈ positions, near q (turn r p) = false) :
    leastOrbits near turn positions rots = none := by
  have hrow : ∀ p ∈ positions, orbitRow near turn positions rots p = none := by
    intro p hp
    unfold orbitRow
    have := orbit_fold_lt (near := near) (turn := turn) rots (p, []) hp ⟨r, hr, hn⟩
    rw [if_pos]
    simpa using this
  have : getOrbits near turn positions rots = none := by
    unfold getOrbits
    obtain ⟨p, l, hl⟩ := List.exists_cons_of_ne_nil hne
    have h0 := hrow p (by simp [hl])
    generalize orbitRow near turn positions rots = f at h0
    rw [hl, List.mapM_cons, h0]
    rfl
  unfold leastOrbits
  rw [this]
  rfl

/-- Hypotheses of `C58_failure`: a quarter turn on two atoms. -/
example : ∀ p ∈ [((1 : Int), (0 : Int)), (2, 0)], ∀ q ∈ [((1 : Int), (0 : Int)), (2, 0)],
    (fun p q => p == q) q ((fun (_ : Unit) (p : Int × Int) => (-p.2, p.1)) () p) = false := by
  decide

/-- **C58**. Every atom is equivalent to a listed second atom, no atom is listed twice, and the least
atom of every class of equivalent atoms is listed. -/
theorem C58_cover (h : SiteGroup near turn positions rots σ) :
    ∃ l, leastOrbits near turn positions rots = some l ∧ l.Nodup ∧
      (∀ v ∈ l, v < positions.length) ∧
      (∀ y < positions.length, ∃ v ∈ l, SameOrbit rots σ v y) ∧
      ∀ y < positions.length, (∀ x < positions.length, SameOrbit rots σ x y → y ≤ x) → y ∈ l := by
  obtain ⟨l, h1, h2, h3⟩ := leastOrbits_eq h
  refine ⟨l, h1, h2, ?_, ?_, ?_⟩
  · intro v hv
    obtain ⟨y, hy, rfl⟩ := (h3 v).1 hv
    exact lt_of_le_of_lt (labels_inv h _ (le_refl _) y hy).2 hy
  · intro y hy
    exact ⟨_, (h3 _).2 ⟨y, hy, rfl⟩, (labels_inv h _ (le_refl _) y hy).1⟩
  · intro y hy hmin
    rw [h3]
    have := labels_inv h _ (le_refl _) y hy
    have hle := hmin _ (lt_of_le_of_lt this.2 hy) this.1
    exact ⟨y, hy, le_antisymm this.2 hle⟩

theorem labels_mono (h : SiteGroup near turn positions rots σ) (k d : Nat)
    (hk : k + d ≤ positions.length) (y : Nat) :
    labelsUpTo positions.length (successive σ rots) (k + d) y ≤
      labelsUpTo positions.length (successive σ rots) k y := by
  induction d with
  | zero => exact le_refl _
  | succ d ih =>
    refine le_trans ?_ (ih (by omega))
    rw [show k + (d + 1) = (k + d) + 1 by omega, labelsUpTo,
      relabelRow_eq _ _ _ _ (row_lt h (by omega))]
    split
    · exact min_le_left _ _
    · exact le_refl _

/-- **C58** (partial). If within every class of equivalent atoms any two are connected by at most two
rows, that is by two successive products of the operations in their order, exactly one
representative per class is listed. Missing: groups and orders of operations without this, where it
is false (`C58_two_representatives`). -/
theorem C58_one_partial (h : SiteGroup near turn positions rots σ)
    (hreach : ∀ x < positions.length, ∀ y, SameOrbit rots σ x y →
      ∃ z ∈ successive σ rots x, y ∈ successive σ rots z) :
    ∃ l, leastOrbits near turn positions rots = some l ∧
      ∀ v ∈ l, ∀ w ∈ l, SameOrbit rots σ v w → v = w := by
  obtain ⟨l, h1, -, h3⟩ := leastOrbits_eq h
  refine ⟨l, h1, ?_⟩
  have key : ∀ y < positions.length, ∀ x < positions.length, SameOrbit rots σ x y →
      labelsUpTo positions.length (successive σ rots) positions.length y ≤ x := by
    have hex : ∀ y, ∃ μ, (y < positions.length → SameOrbit rots σ μ y ∧ μ < positions.length ∧
        ∀ x < positions.length, SameOrbit rots σ x y → μ ≤ x) := by
      intro y
      by_cases hy : y < positions.length
      · classical
        have hne : ∃ x, x < positions.length ∧ SameOrbit rots σ x y := ⟨y, hy, same_refl h hy⟩
        exact ⟨Nat.find hne, fun _ => ⟨(Nat.find_spec hne).2, (Nat.find_spec hne).1,
          fun x hx hs => Nat.find_min' hne ⟨hx, hs⟩⟩⟩
      · exact ⟨0, fun hc => absurd hc hy⟩
    intro y hy x hx hxy
    obtain ⟨μ, hμ⟩ := hex y
    obtain ⟨hμy, hμn, hμmin⟩ := hμ hy
    refine le_trans ?_ (hμmin x hx hxy)
    obtain ⟨z, hz, hyz⟩ := hreach μ hμn y hμy
    have hμz : SameOrbit rots σ μ z := successive_same h rots (fun r hr => hr) hμn z hz
    have hzn := same_lt h hμn hμz
    have hzy : SameOrbit rots σ z y := successive_same h rots (fun r hr => hr) hzn y hyz
    -- the label of the least atom after its row
    have hzμ : μ ≤ z := hμmin z hzn hzy
    have step1 : labelsUpTo positions.length (successive σ rots) (μ + 1) z ≤ μ := by
      rw [labelsUpTo, relabelRow_eq _ _ _ _ (row_lt h hμn), if_pos hz]
      exact le_trans (min_le_right _ _) (labels_inv h μ (le_of_lt hμn) μ hμn).2
    have step2 : labelsUpTo positions.length (successive σ rots) z z ≤ μ := by
      rcases Nat.eq_or_lt_of_le hzμ with he | hlt
      · rw [← he]
        exact (labels_inv h μ (le_of_lt hμn) μ hμn).2
      · have := labels_mono h (μ + 1) (z - (μ + 1)) (by omega) z
        rw [show μ + 1 + (z - (μ + 1)) = z by omega] at this
        exact le_trans this step1
    have step3 : labelsUpTo positions.length (successive σ rots) (z + 1) y ≤ μ := by
      rw [labelsUpTo, relabelRow_eq _ _ _ _ (row_lt h hzn), if_pos hyz]
      exact le_trans (min_le_right _ _) step2
    have := labels_mono h (z + 1) (positions.length - (z + 1)) (by omega) y
    rw [show z + 1 + (positions.length - (z + 1)) = positions.length by omega] at this
    exact le_trans this step3
  intro v hv w hw hvw
  obtain ⟨a, ha, rfl⟩ := (h3 v).1 hv
  obtain ⟨b, hb, rfl⟩ := (h3 w).1 hw
  have ia := labels_inv h positions.length (le_refl _) a ha
  have ib := labels_inv h positions.length (le_refl _) b hb
  have la := lt_of_le_of_lt ia.2 ha
  have lb := lt_of_le_of_lt ib.2 hb
  have hab : SameOrbit rots σ a b := same_trans h ha (same_symm h la ia.1) (same_trans h la hvw ib.1)
  refine le_antisymm ?_ ?_
  · exact key a ha _ lb (same_trans h lb ib.1 (same_symm h ha hab))
  · exact key b hb _ la (same_trans h la ia.1 hab)

/-! ### Examples -/

/-- Operations as integer matrices of a hexagonal plane. -/
def turnHex (r : Int × Int × Int × Int) (p : Int × Int) : Int × Int :=
  (r.1 * p.1 + r.2.1 * p.2, r.2.2.1 * p.1 + r.2.2.2 * p.2)

/-- Twelve equivalent atoms around a central atom, the last one. -/
def exampleHexAtoms : List (Int × Int) :=
  [(3, -1), (3, 4), (-4, -3), (-1, 3), (4, 1), (1, -3), (4, 3), (-4, -1), (1, 4), (-1, -4), (-3, 1),
    (-3, -4), (0, 0)]

/-- The twelve operations of the site symmetry `6mm`. -/
def exampleHexRots : List (Int × Int × Int × Int) :=
  [(1, 0, 0, 1), (0, -1, 1, -1), (1, 0, 1, -1), (-1, 0, -1, 1), (0, 1, 1, 0), (0, -1, -1, 0),
    (1, -1, 0, -1), (-1, 1, 0, 1), (1, -1, 1, 0), (0, 1, -1, 1), (-1, 0, 0, -1), (-1, 1, -1, 0)]

/-- The permutations of the atoms. -/
def exampleHexPerm (r : Int × Int × Int × Int) (x : Nat) : Nat :=
  exampleHexAtoms.findIdx (fun q => q == turnHex r (exampleHexAtoms.getD x (0, 0)))

theorem siteGroup_of_check (positions : List (Int × Int)) (rots : List (Int × Int × Int × Int))
    (σ : (Int × Int × Int × Int) → Nat → Nat) (d : Int × Int)
    (h1 : ∀ r ∈ rots, ∀ x < positions.length, ∀ y < positions.length,
      ((positions.getD y d == turnHex r (positions.getD x d)) = true ↔ y = σ r x))
    (h2 : ∀ r ∈ rots, ∀ x < positions.length, σ r x < positions.length)
    (h3 : ∃ e ∈ rots, ∀ x < positions.length, σ e x = x)
    (h4 : ∀ r ∈ rots, ∀ s ∈ rots, ∃ t ∈ rots, ∀ x < positions.length, σ t x = σ r (σ s x))
    (h5 : ∀ r ∈ rots, ∃ t ∈ rots, ∀ x < positions.length, σ t (σ r x) = x) :
    SiteGroup (fun p q => p == q) turnHex positions rots σ := by
  refine ⟨?_, h2, h3, h4, h5⟩
  intro r hr x y p q hp hq
  obtain ⟨hx, hxp⟩ := List.getElem?_eq_some_iff.1 hp
  obtain ⟨hy, hyq⟩ := List.getElem?_eq_some_iff.1 hq
  have := h1 r hr x hx y hy
  rw [List.getD_eq_getElem _ _ hx, List.getD_eq_getElem _ _ hy, hxp, hyq] at this
  exact this

/-- Hypothesis of `C58_cover`: the twelve operations permute the thirteen atoms. -/
theorem exampleHex_group :
    SiteGroup (fun p q => p == q) turnHex exampleHexAtoms exampleHexRots exampleHexPerm :=
  siteGroup_of_check _ _ _ (0, 0) (by decide +kernel) (by decide +kernel) (by decide +kernel)
    (by decide +kernel) (by decide +kernel)

/-- **C58**, what fails. For the site symmetry `6mm` with the operations in this order, two
representatives are listed of one class of equivalent atoms. -/
theorem C58_two_representatives :
    leastOrbits (fun p q => p == q) turnHex exampleHexAtoms exampleHexRots = some [0, 1, 12] ∧
      SameOrbit exampleHexRots exampleHexPerm 0 1 := by
  refine ⟨by decide +kernel, ?_⟩
  unfold SameOrbit
  decide +kernel

/-- The four operations of the site symmetry `mm2`, with five atoms. -/
def exampleRectAtoms : List (Int × Int) := [(1, 2), (0, 0), (-1, 2), (1, -2), (-1, -2)]

/-- The operations. -/
def exampleRectRots : List (Int × Int × Int × Int) :=
  [(1, 0, 0, 1), (-1, 0, 0, 1), (1, 0, 0, -1), (-1, 0, 0, -1)]

/-- The permutations of the atoms. -/
def exampleRectPerm (r : Int × Int × Int × Int) (x : Nat) : Nat :=
  exampleRectAtoms.findIdx (fun q => q == turnHex r (exampleRectAtoms.getD x (0, 0)))

/-- Hypotheses of `C58_one_partial`. -/
example : SiteGroup (fun p q => p == q) turnHex exampleRectAtoms exampleRectRots exampleRectPerm ∧
    (∀ x < exampleRectAtoms.length, ∀ y, SameOrbit exampleRectRots exampleRectPerm x y →
      ∃ z ∈ successive exampleRectPerm exampleRectRots x,
        y ∈ successive exampleRectPerm exampleRectRots z) ∧
    leastOrbits (fun p q => p == q) turnHex exampleRectAtoms exampleRectRots = some [0, 1] := by
  refine ⟨siteGroup_of_check _ _ _ (0, 0) (by decide +kernel) (by decide +kernel)
    (by decide +kernel) (by decide +kernel) (by decide +kernel), ?_, by decide +kernel⟩
  rintro x hx y ⟨r, hr, rfl⟩
  revert x r
  decide +kernel

end Props
end Phono3py
