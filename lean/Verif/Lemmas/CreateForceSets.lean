import Verif.Spec.CreateForceSets
import Verif.Props.Dataset

/-!
# Lemmas on collecting forces
-/

namespace Phono3py.Props

open Phono3py

variable {M F V K P : Type}

/-- Hand the arrays to the included supercells, in order. -/
def placeForces : List (Displaced V) → List (List V) → List (Displaced V)
  | [], _ => []
  | e :: es, gs =>
    if e.included then
      match gs with
      | g :: gs => withForces e g :: placeForces es gs
      | [] => e :: placeForces es []
    else e :: placeForces es gs

theorem placeForces_append (as bs : List (Displaced V)) (gs : List (List V)) :
    placeForces (as ++ bs) gs =
      placeForces as gs ++ placeForces bs (gs.drop (as.filter (fun e => e.included)).length) := by
  induction as generalizing gs with
  | nil => simp [placeForces]
  | cons a as ih =>
    cases hi : a.included with
    | true =>
      cases gs with
      | nil => simp [placeForces, hi, ih]
      | cons g gs => simp [placeForces, hi, ih]
    | false => simp [placeForces, hi, ih]

theorem placeForces_same {α : Type} (g : Displaced V → α) (hg : ∀ e v, g (withForces e v) = g e)
    (es : List (Displaced V)) (gs : List (List V)) :
    (placeForces es gs).map g = es.map g := by
  induction es generalizing gs with
  | nil => rfl
  | cons e es ih =>
    cases hi : e.included with
    | true => cases gs <;> simp [placeForces, hi, ih, hg]
    | false => simp [placeForces, hi, ih]

theorem placeForces_included (es : List (Displaced V)) (gs : List (List V))
    (h : (es.filter (fun e => e.included)).length = gs.length) :
    ((placeForces es gs).filter (fun e => e.included)).map (fun e => e.forces) = gs.map some := by
  induction es generalizing gs with
  | nil => cases gs <;> simp_all [placeForces]
  | cons e es ih =>
    cases hi : e.included with
    | true =>
      cases gs with
      | nil => simp [hi] at h
      | cons g gs =>
        have hw : (withForces e g).included = true := hi
        have := ih gs (by simpa [hi] using h)
        simp only [placeForces, hi, if_true, List.filter_cons, hw, List.map_cons, this]
        rfl
    | false => simpa [placeForces, hi] using ih gs (by simpa [hi] using h)

theorem placeForces_excluded (es : List (Displaced V)) (gs : List (List V)) :
    (placeForces es gs).filter (fun e => !e.included) = es.filter (fun e => !e.included) := by
  induction es generalizing gs with
  | nil => rfl
  | cons e es ih =>
    cases hi : e.included with
    | true =>
      cases gs with
      | nil => simp [placeForces, hi, ih]
      | cons g gs =>
        have hw : (withForces e g).included = true := hi
        simp [placeForces, hi, ih, hw]
    | false => simp [placeForces, hi, ih]

theorem storeSecond_spec [AddMonoid V] (c : CalcDataset V K P) (d1 d1' : Disp1 V K)
    (hd : d1'.number = d1.number ∧ d1'.displacement = d1.displacement)
    (k : Nat) (l l' : List (Disp2 V K)) (k' : Nat) (h : storeSecond c k l = some (l', k')) :
    k' = k + ((l.map (pairCell d1)).filter (fun e => e.included)).length ∧
      l'.map (pairCell d1') = placeForces (l.map (pairCell d1)) (c.forces.drop k) := by
  induction l generalizing k l' with
  | nil =>
    simp only [storeSecond, Option.some.injEq, Prod.mk.injEq] at h
    obtain ⟨rfl, rfl⟩ := h
    simp [placeForces]
  | cons d l ih =>
    simp only [storeSecond] at h
    have hinc : (pairCell d1 d).included = d.included.getD true := rfl
    cases hi : d.included.getD true with
    | true =>
      rw [if_pos hi] at h
      simp only [Option.bind_eq_some_iff, Option.map_eq_some_iff] at h
      obtain ⟨f, hf, e, -, ⟨r1, r2⟩, hr, hx⟩ := h
      rw [Prod.mk.injEq] at hx
      obtain ⟨rfl, rfl⟩ := hx
      obtain ⟨h1, h2⟩ := ih _ _ hr
      obtain ⟨hlt, rfl⟩ := List.getElem?_eq_some_iff.1 hf
      rw [hi] at hinc
      constructor
      · simp only [List.map_cons, List.filter_cons, hinc, if_true, List.length_cons]
        simp only at h1
        omega
      · simp only [List.map_cons, placeForces, hinc, if_true]
        rw [List.drop_eq_getElem_cons hlt]
        simp only [h2]
        congr 1
        simp only [pairCell, withForces, hd.1, hd.2]
    | false =>
      rw [if_neg (by simp [hi])] at h
      simp only [Option.map_eq_some_iff] at h
      obtain ⟨⟨r1, r2⟩, hr, hx⟩ := h
      rw [Prod.mk.injEq] at hx
      obtain ⟨rfl, rfl⟩ := hx
      obtain ⟨h1, h2⟩ := ih _ _ hr
      rw [hi] at hinc
      constructor
      · simpa [hinc] using h1
      · simp only [List.map_cons, placeForces, hinc, Bool.false_eq_true, if_false, h2]
        congr 1
        simp only [pairCell, hd.1, hd.2]

theorem storeFirst_spec [AddMonoid V] (c : CalcDataset V K P) (i k : Nat)
    (l l' : List (Disp1 V K)) (h : storeFirst c i k l = some l') :
    l'.map firstCell = placeForces (l.map firstCell) (c.forces.drop i) ∧
      pairCells l' = placeForces (pairCells l) (c.forces.drop k) := by
  induction l generalizing i k l' with
  | nil =>
    simp only [storeFirst, Option.some.injEq] at h
    subst h
    exact ⟨rfl, rfl⟩
  | cons d l ih =>
    simp only [storeFirst, Option.bind_eq_some_iff, Option.map_eq_some_iff] at h
    obtain ⟨f, hf, e, -, ⟨s1, s2⟩, hs, r, hr, rfl⟩ := h
    obtain ⟨h1, h2⟩ := ih _ _ _ hr
    obtain ⟨hlt, rfl⟩ := List.getElem?_eq_some_iff.1 hf
    obtain ⟨h3, h4⟩ := storeSecond_spec c d
      { d with forces := some c.forces[i], energy := e, second := s1 } ⟨rfl, rfl⟩ _ _ _ _ hs
    constructor
    · rw [List.drop_eq_getElem_cons hlt]
      have : (firstCell d).included = true := rfl
      simp only [List.map_cons, placeForces, this, if_true, h1]
      rfl
    · have e1 : pairCells ({ d with forces := some c.forces[i], energy := e, second := s1 } :: r) =
          s1.map (pairCell { d with forces := some c.forces[i], energy := e, second := s1 }) ++
            pairCells r := rfl
      have e2 : pairCells (d :: l) = d.second.map (pairCell d) ++ pairCells l := rfl
      rw [e1, e2, h4, h2, placeForces_append, h3, List.drop_drop]

theorem storeFc3_cells [AddMonoid V] (c : CalcDataset V K P) (ds ds' : DispDataset V K)
    (h : storeFc3 c (.type1 ds) = some (.type1 ds')) :
    displacedCells ds' = placeForces (displacedCells ds) c.forces := by
  simp only [storeFc3, Option.map_eq_some_iff] at h
  obtain ⟨l, hl, hx⟩ := h
  simp only [AnyDataset.type1.injEq] at hx
  subst hx
  obtain ⟨h1, h2⟩ := storeFirst_spec c _ _ _ _ hl
  rw [displacedCells_eq, displacedCells_eq, placeForces_append]
  simp only [h1, h2, List.drop_zero]
  congr 2
  rw [List.filter_eq_self.2]
  · simp
  · intro e he
    obtain ⟨d, -, rfl⟩ := List.mem_map.1 he
    rfl

/-- The energies suffice: none were given, or one per array of forces. -/
def EnergiesFit (c : CalcDataset V K P) : Prop :=
  ∀ es, c.energies = some es → es.length = c.forces.length

theorem energyAt_some {c : CalcDataset V K P} (h : EnergiesFit c) (old : Option K) {i : Nat}
    (hi : i < c.forces.length) : ∃ e, energyAt c.energies old i = some e := by
  unfold energyAt
  cases he : c.energies with
  | none => exact ⟨old, rfl⟩
  | some es =>
    have := h es he
    exact ⟨some es[i], by simp [List.getElem?_eq_getElem (show i < es.length by omega)]⟩

theorem storeSecond_some [AddMonoid V] {c : CalcDataset V K P} (hc : EnergiesFit c)
    (d1 : Disp1 V K) (k : Nat) (l : List (Disp2 V K))
    (h : k + ((l.map (pairCell d1)).filter (fun e => e.included)).length ≤ c.forces.length) :
    ∃ l' k', storeSecond c k l = some (l', k') := by
  induction l generalizing k with
  | nil => exact ⟨[], k, rfl⟩
  | cons d l ih =>
    have hinc : (pairCell d1 d).included = d.included.getD true := rfl
    cases hi : d.included.getD true with
    | true =>
      rw [hi] at hinc
      simp only [List.map_cons, List.filter_cons, hinc, if_true, List.length_cons] at h
      obtain ⟨l', k', e⟩ := ih (k + 1) (by omega)
      obtain ⟨en, he⟩ := energyAt_some hc d.energy (i := k) (by omega)
      exact ⟨_, _, by
        simp only [storeSecond, hi, if_true, he, e,
          List.getElem?_eq_getElem (show k < c.forces.length by omega), Option.bind_some,
          Option.map_some]; rfl⟩
    | false =>
      rw [hi] at hinc
      simp only [List.map_cons, List.filter_cons, hinc, Bool.false_eq_true, if_false] at h
      obtain ⟨l', k', e⟩ := ih k h
      exact ⟨_, _, by
        simp only [storeSecond, hi, Bool.false_eq_true, if_false, e, Option.map_some]; rfl⟩

theorem storeFirst_some [AddMonoid V] {c : CalcDataset V K P} (hc : EnergiesFit c)
    (i k : Nat) (l : List (Disp1 V K)) (hi : i + l.length ≤ c.forces.length)
    (hk : k + ((pairCells l).filter (fun e => e.included)).length ≤ c.forces.length) :
    ∃ l', storeFirst c i k l = some l' := by
  induction l generalizing i k with
  | nil => exact ⟨[], rfl⟩
  | cons d l ih =>
    have e2 : pairCells (d :: l) = d.second.map (pairCell d) ++ pairCells l := rfl
    rw [e2, List.filter_append, List.length_append] at hk
    rw [List.length_cons] at hi
    obtain ⟨en, he⟩ := energyAt_some hc d.energy (i := i) (by omega)
    obtain ⟨s, k', hs⟩ := storeSecond_some hc d k d.second (by omega)
    obtain ⟨h3, -⟩ := storeSecond_spec c d d ⟨rfl, rfl⟩ _ _ _ _ hs
    obtain ⟨l', hl⟩ := ih (i + 1) k' (by omega) (by omega)
    exact ⟨_, by
      simp only [storeFirst, he, hs, hl,
        List.getElem?_eq_getElem (show i < c.forces.length by omega), Option.bind_some,
        Option.map_some]; rfl⟩

theorem included_count [AddMonoid V] (ds : DispDataset V K) :
    ((displacedCells ds).filter (fun e => e.included)).length =
      ds.first.length + ((pairCells ds.first).filter (fun e => e.included)).length := by
  rw [displacedCells_eq, List.filter_append, List.length_append]
  congr 1
  rw [List.filter_eq_self.2]
  · simp
  · intro e he
    obtain ⟨d, -, rfl⟩ := List.mem_map.1 he
    rfl

theorem countsFc3_eq [AddMonoid V] (ds : DispDataset V K) :
    countsFc3 (.type1 ds) =
      some (((displacedCells ds).filter (fun e => e.included)).length, ds.natom) := by
  rw [included_count]
  simp only [countsFc3]
  congr 3
  unfold pairCells
  generalize ds.first = l
  induction l with
  | nil => rfl
  | cons d l ih =>
    rw [List.map_cons, List.sum_cons, List.flatMap_cons, List.filter_append, List.length_append, ih]
    congr 1
    rw [List.filter_map, List.length_map]
    rfl

theorem subtractForces_spec [Sub V] (zero : List V) (fs : List (List V)) :
    ((∀ f ∈ fs, f.length = zero.length) →
      subtractForces zero fs = some (fs.map (fun f => List.zipWith (fun a b => a - b) f zero))) := by
  induction fs with
  | nil => intro _; rfl
  | cons f fs ih =>
    intro h
    simp only [subtractForces]
    rw [if_pos (h f (by simp)), ih (fun g hg => h g (by simp [hg]))]
    rfl

theorem subtractResidual_forces [Sub V] {r : CalcReaders M F V K P} {mode : Option M} {natom : Nat}
    {truth : F → List V} (hr : ReadsForces r mode natom truth) (z : Option F) (files : List F)
    (c c' : CalcDataset V K P) (hc : c.forces = files.map truth)
    (h : subtractResidual r mode natom z c = some c') :
    c'.forces = files.map (netForces truth z) ∧ c'.energies = c.energies := by
  cases z with
  | none =>
    simp only [subtractResidual, Option.some.injEq] at h
    subst h
    exact ⟨hc, rfl⟩
  | some f =>
    simp only [subtractResidual] at h
    split at h
    · have hz : (r.parse mode natom [f]).forces = [truth f] := by rw [hr.parse]; rfl
      rw [hz] at h
      simp only at h
      split at h
      · cases h
      · rw [Option.map_eq_some_iff] at h
        obtain ⟨fs, h1, rfl⟩ := h
        rw [subtractForces_spec _ _ (by
          rw [hc]
          intro g hg
          obtain ⟨x, -, rfl⟩ := List.mem_map.1 hg
          rw [hr.rows, hr.rows]), Option.some.injEq] at h1
        refine ⟨?_, rfl⟩
        simp only [← h1, hc, List.map_map]
        rfl
    · cases h

theorem subtractResidual_some [Sub V] {r : CalcReaders M F V K P} {mode : Option M} {natom : Nat}
    {truth : F → List V} (hr : ReadsForces r mode natom truth) {ds : AnyDataset V K}
    (z : Option F) (files : List F) (hf : FilesFit r mode natom ds files z)
    (c : CalcDataset V K P) (hc : c.forces = files.map truth) :
    ∃ c', subtractResidual r mode natom z c = some c' := by
  cases z with
  | none => exact ⟨c, rfl⟩
  | some f =>
    have hz : (r.parse mode natom [f]).forces = [truth f] := by rw [hr.parse]; rfl
    have hp : ((r.parse mode natom [f]).points.any r.perfectDiffers) = false := by
      cases hq : (r.parse mode natom [f]).points with
      | none => rfl
      | some p => exact hf.residualFit f p rfl hq
    refine ⟨_, by
      simp only [subtractResidual, hf.residualPresent f rfl, if_true, hz, hp, Bool.false_eq_true,
        if_false]
      rw [subtractForces_spec _ _ (by
          rw [hc]
          intro g hg
          obtain ⟨x, -, rfl⟩ := List.mem_map.1 hg
          rw [hr.rows, hr.rows])]
      rfl⟩

theorem supercellFiles_cells {C : Type} (cells : List (Option C)) :
    (supercellFiles cells).map (fun p => p.2) = cells.filterMap id := by
  unfold supercellFiles
  have : ∀ (n : Nat), ((cells.zipIdx n).filterMap
      (fun p => p.1.map (fun c => (p.2 + 1, c)))).map (fun p => p.2) = cells.filterMap id := by
    induction cells with
    | nil => intro n; rfl
    | cons c cs ih =>
      intro n
      cases c with
      | none => simpa using ih (n + 1)
      | some c => simpa using ih (n + 1)
  exact this 0

theorem supercells_written [AddMonoid V] (pos : Nat → V) (ds : DispDataset V K) :
    (supercellFiles (buildSupercells pos ds)).map (fun p => p.2) =
      ((displacedCells ds).filter (fun e => e.included)).map
        (fun e => fun k => pos k + e.field k) := by
  rw [supercellFiles_cells, C48_supercells, List.filterMap_map]
  generalize displacedCells ds = l
  induction l with
  | nil => rfl
  | cons e l ih => 
    have := ih
    cases hi : e.included <;> simp [hi] <;> simpa using this

end Phono3py.Props
