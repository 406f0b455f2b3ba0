import Verif.Spec.DirectRun
import Verif.Props.StoredSelect
import Verif.Props.RtaRun

/-!
# C158: a direct solution put together from several runs
-/

namespace Phono3py.Props

open Phono3py Phono3py.Spec

variable {K : Type}

/-! ### Tables -/

theorem rowIndices_mem {ds row : List Nat} :
    row ∈ rowIndices ds ↔ List.Forall₂ (· < ·) row ds := by
  induction ds generalizing row with
  | nil => simp [rowIndices]
  | cons n ds ih =>
    unfold rowIndices
    simp only [List.mem_flatMap, List.mem_range, List.mem_map]
    constructor
    · rintro ⟨k, hk, r, hr, rfl⟩
      exact .cons hk (ih.1 hr)
    · intro h
      cases h with
      | cons hk hr => exact ⟨_, hk, _, ih.2 hr, rfl⟩

theorem colmatRows_congr {n m : Nat} {ds : List Nat} {a a' : Nat → Nat → List Nat → K}
    (h : ∀ i < n, ∀ b < m, ∀ row, List.Forall₂ (· < ·) row ds → a i b row = a' i b row) :
    colmatRows n m ds a = colmatRows n m ds a' := by
  unfold colmatRows
  refine List.map_congr_left fun i hi => List.map_congr_left fun b hb =>
    List.map_congr_left fun row hrow => ?_
  exact h i (List.mem_range.1 hi) b (List.mem_range.1 hb) row (rowIndices_mem.1 hrow)

section
variable [Zero K] {s s' : DirSettings} {w : DirWorld K}

/-! ### The loop over the whole mesh -/

/-- What is kept by the loop. -/
theorem dirLoop_keeps (s : DirSettings) (w : DirWorld K) (l : List (Nat × Nat)) (st : DirState K) :
    (dirLoop s w l st).1.read = st.read ∧ (dirLoop s w l st).1.temps = st.temps := by
  induction l generalizing st with
  | nil => exact ⟨rfl, rfl⟩
  | cons g l ih =>
    obtain ⟨h1, h2⟩ := ih (dirPoint s w st g.1 g.2)
    exact ⟨h1, h2⟩

theorem dirPoint_gamma (hp : s.source.points = none) {st : DirState K} (hr : st.read = false)
    (gp i : Nat) (j t : Nat) :
    (dirPoint s w st gp i).data.gamma j t = setAt (st.data.gamma j t) (dirPlace s w gp i) fun k =>
      w.gamma (s.sigmas.getD j none) (st.temps.getD t 0) gp (s.bands.getD k 0) := by
  have e : dirSlot s w gp i = dirPlace s w gp i := by unfold dirSlot; rw [hp]; rfl
  simp only [dirPoint, hr, e]
  rfl

theorem dirPoint_colmat (hp : s.source.points = none) {st : DirState K} (hr : st.read = false)
    (gp i : Nat) (j t : Nat) :
    (dirPoint s w st gp i).data.colmat j t = setAt (st.data.colmat j t) (dirPlace s w gp i) fun k =>
      w.colmat s.reducible (s.sigmas.getD j none) (st.temps.getD t 0) gp (s.bands.getD k 0) := by
  have e : dirSlot s w gp i = dirPlace s w gp i := by unfold dirSlot; rw [hp]; rfl
  have e2 : dirClear s st.data.colmat = st.data.colmat := by unfold dirClear; rw [hp]; rfl
  simp only [dirPoint, hr, e, e2]
  rfl

theorem setAt_eq {β : Type} {a b : Nat → β} {i m : Nat} {x : β} (h : m = i ∨ a m = b m) :
    setAt a i x m = setAt b i x m := by
  unfold setAt
  split
  · rfl
  · rename_i hm
    exact h.resolve_left hm

/-- Two runs over the same grid points of the whole mesh agree at the positions visited, whatever was
in the arrays, and at other positions if they agreed before. -/
theorem dirLoop_same (h1 : s'.sigmas = s.sigmas) (h2 : s'.bands = s.bands)
    (h3 : s'.reducible = s.reducible) (hp : s.source.points = none) (hp' : s'.source.points = none)
    (l : List (Nat × Nat)) (st st' : DirState K) (hr : st.read = false) (hr' : st'.read = false)
    (ht : st'.temps = st.temps) (hi : st'.iso = st.iso) :
    (dirLoop s' w l st').1.iso = (dirLoop s w l st).1.iso ∧
    (∀ j t i k, ((∃ g ∈ l, dirPlace s w g.1 g.2 = i) ∨
        st'.data.gamma j t i k = st.data.gamma j t i k) →
      (dirLoop s' w l st').1.data.gamma j t i k = (dirLoop s w l st).1.data.gamma j t i k) ∧
    (∀ j t i k row, ((∃ g ∈ l, dirPlace s w g.1 g.2 = i) ∨
        st'.data.colmat j t i k row = st.data.colmat j t i k row) →
      (dirLoop s' w l st').1.data.colmat j t i k row =
        (dirLoop s w l st).1.data.colmat j t i k row) := by
  induction l generalizing st st' with
  | nil =>
    refine ⟨hi, ?_, ?_⟩
    · rintro j t i k (h | h)
      · simp at h
      · exact h
    · rintro j t i k row (h | h)
      · simp at h
      · exact h
  | cons g l ih =>
    obtain ⟨gp, i0⟩ := g
    have hpl : dirPlace s' w gp i0 = dirPlace s w gp i0 := by unfold dirPlace; rw [h3]
    obtain ⟨a1, a2, a3⟩ := ih (dirPoint s w st gp i0) (dirPoint s' w st' gp i0) hr hr' ht
      (by simp only [dirPoint, hi, hpl, h1, h2])
    refine ⟨a1, ?_, ?_⟩
    · intro j t i k hh
      refine a2 j t i k ?_
      by_cases hi0 : i = dirPlace s w gp i0
      · right
        rw [dirPoint_gamma hp hr, dirPoint_gamma hp' hr', hpl, hi0, setAt_same, setAt_same, h1, h2, ht]
      · rcases hh with ⟨g, hg, hgi⟩ | hh
        · rcases List.mem_cons.1 hg with rfl | hg
          · exact absurd hgi.symm hi0
          · exact .inl ⟨g, hg, hgi⟩
        · right
          rw [dirPoint_gamma hp hr, dirPoint_gamma hp' hr', hpl, setAt_other _ _ hi0,
            setAt_other _ _ hi0]
          exact hh
    · intro j t i k row hh
      refine a3 j t i k row ?_
      by_cases hi0 : i = dirPlace s w gp i0
      · right
        rw [dirPoint_colmat hp hr, dirPoint_colmat hp' hr', hpl, hi0, setAt_same, setAt_same, h1, h2,
          h3, ht]
      · rcases hh with ⟨g, hg, hgi⟩ | hh
        · rcases List.mem_cons.1 hg with rfl | hg
          · exact absurd hgi.symm hi0
          · exact .inl ⟨g, hg, hgi⟩
        · right
          rw [dirPoint_colmat hp hr, dirPoint_colmat hp' hr', hpl, setAt_other _ _ hi0,
            setAt_other _ _ hi0]
          exact hh

/-- Whether a position belongs to no grid point of the mesh. -/
def Unvisited (s : DirSettings) (w : DirWorld K) (i : Nat) : Prop :=
  ∀ g ∈ w.meshPoints.zipIdx, dirPlace s w g.1 g.2 ≠ i

omit [Zero K] in
theorem ir_visited (hred : s.reducible = false) {i : Nat} (hi : i < w.meshPoints.length) :
    ¬ Unvisited s w i := by
  intro h
  obtain ⟨g, hg, hgi⟩ := zipIdx_position hi
  exact h g hg (by simp [dirPlace, hred, hgi])

/-! ### What a reading run does -/

/-- The result of a run over the whole mesh from given arrays. -/
theorem dirGo_outcome (s : DirSettings) (w : DirWorld K) (sol : Bool) (st : DirState K) :
    (dirGo s w sol st).outcome = .result
      { state := (dirLoop s w (dirPoints s w).zipIdx st).1
        kappa := if s.source.points = none ∧ dirAllBands s = true then
          some (dirKappa s w (dirLoop s w (dirPoints s w).zipIdx st).1) else none } := rfl

/-- What is read, by the forms of `read_collision`. -/
def dirRead (s : DirSettings) (w : DirWorld K) (ix : ColIndices) (d : Disk (ColFile K)) :
    Option (Option (ColRead K)) :=
  setCollisionSelected ix (dirStore s w 0 s.inName) (dirPlaces s w)
    (fun i => dirPlace s w (w.meshPoints.getD i 0) i) (w.rowDims s.reducible) d
    { gamma := fun _ _ _ _ => 0, colmat := fun _ _ _ _ _ => 0 }

theorem dirRun_stored {ix : ColIndices} (hs : s.source = .stored ix) (d : Disk (ColFile K)) :
    dirRun s w d = dirAfterRead s w (readFromPoints (dirStore s w 0 s.inName) d) (dirRead s w ix d) := by
  have hpts : dirPoints s w = w.meshPoints := by unfold dirPoints; rw [hs]; rfl
  unfold dirRun dirRead
  rw [hs, hpts]

/-- **C158 (stored data are not used).** When reading succeeds, a run with `read_collision` over the
whole mesh returns what a run that computes everything at the temperatures of the files returns,
whatever linewidths and collision matrices are in the files. -/
theorem read_recomputes {ix : ColIndices} (hs : s.source = .stored ix) {d : Disk (ColFile K)}
    {v : ColRead K} {ts : List ℚ} (hv : dirRead s w ix d = some (some v)) (hts : v.temps = some ts)
    (hz : ∀ i < dirPlaces s w, Unvisited s w i → ∀ j < s.sigmas.length, ∀ t < ts.length,
      ∀ b < s.bands.length, v.gamma j t i b = 0 ∧
        ∀ row, List.Forall₂ (· < ·) row (w.rowDims s.reducible) → v.colmat j t i b row = 0)
    (d' : Disk (ColFile K)) :
    ∃ x y, (dirRun s w d).outcome = .result x ∧
      (dirRun (computed s ts) w d').outcome = .result y ∧ y.state.temps = ts ∧ SameDirect s w x y := by
  have hpts : dirPoints s w = w.meshPoints := by unfold dirPoints; rw [hs]; rfl
  have hp : s.source.points = none := by rw [hs]; rfl
  have hpts' : dirPoints (computed s ts) w = w.meshPoints := rfl
  have ex : dirRun s w d = dirGo s w (s.writeSolution && dirAllBands s &&
      readFromPoints (dirStore s w 0 s.inName) d) (dirTake s ts v) := by
    rw [dirRun_stored hs, hv]
    simp only [dirAfterRead, hts]
  have ey : dirRun (computed s ts) w d' = dirGo (computed s ts) w false (dirInit s ts) := rfl
  rw [ex, ey, dirGo_outcome, dirGo_outcome]
  refine ⟨_, _, rfl, rfl, (dirLoop_keeps _ _ _ _).2, ?_⟩
  rw [hpts, hpts']
  obtain ⟨a1, a2, a3⟩ := dirLoop_same (s := computed s ts) (s' := s) (w := w) rfl rfl rfl rfl hp
    w.meshPoints.zipIdx (dirInit s ts) (dirTake s ts v) rfl rfl rfl rfl
  have ht1 := (dirLoop_keeps s w w.meshPoints.zipIdx (dirTake s ts v)).2
  have ht2 := (dirLoop_keeps (computed s ts) w w.meshPoints.zipIdx (dirInit s ts)).2
  generalize (dirLoop s w w.meshPoints.zipIdx (dirTake s ts v)).1 = X at a1 a2 a3 ht1 ⊢
  generalize (dirLoop (computed s ts) w w.meshPoints.zipIdx (dirInit s ts)).1 = Y at a1 a2 a3 ht2 ⊢
  have htX : X.temps = ts := ht1
  have htY : Y.temps = ts := ht2
  have visited : ∀ i, ¬ Unvisited s w i →
      ∃ g ∈ w.meshPoints.zipIdx, dirPlace (computed s ts) w g.1 g.2 = i := by
    intro i hi
    unfold Unvisited at hi
    push Not at hi
    exact hi
  have hg : ∀ j < s.sigmas.length, ∀ t < ts.length, ∀ i < dirPlaces s w, ∀ b < s.bands.length,
      X.data.gamma j t i b = Y.data.gamma j t i b := by
    intro j hj t ht i hi b hb
    refine a2 j t i b ?_
    by_cases hu : Unvisited s w i
    · exact .inr (hz i hi hu j hj t ht b hb).1
    · exact .inl (visited i hu)
  have hc : ∀ j < s.sigmas.length, ∀ t < ts.length, ∀ i < dirPlaces s w, ∀ b < s.bands.length,
      ∀ row, List.Forall₂ (· < ·) row (w.rowDims s.reducible) →
      X.data.colmat j t i b row = Y.data.colmat j t i b row := by
    intro j hj t ht i hi b hb row hrow
    refine a3 j t i b row ?_
    by_cases hu : Unvisited s w i
    · exact .inr ((hz i hi hu j hj t ht b hb).2 row hrow)
    · exact .inl (visited i hu)
  have hk : dirKappa s w X = dirKappa (computed s ts) w Y := by
    have hpl : dirPlaces (computed s ts) w = dirPlaces s w := by
      unfold dirPlaces
      rw [hpts, hpts']
      rfl
    unfold dirKappa
    rw [hpl, htX, htY, a1]
    refine List.map_congr_left fun j hj => List.map_congr_left fun t ht => ?_
    have hj' : j < s.sigmas.length := List.mem_range.1 hj
    have ht' : t.2 < ts.length := (List.getElem?_eq_some_iff.1 (zipIdx_getElem? ht)).1
    have e1 : gammaRows (dirPlaces s w) s.bands.length (X.data.gamma j t.2) =
        gammaRows (dirPlaces s w) s.bands.length (Y.data.gamma j t.2) :=
      gammaRows_congr fun i hi b hb => hg j hj' t.2 ht' i hi b hb
    have e2 : colmatRows (dirPlaces s w) s.bands.length (w.rowDims s.reducible) (X.data.colmat j t.2) =
        colmatRows (dirPlaces s w) s.bands.length (w.rowDims s.reducible) (Y.data.colmat j t.2) :=
      colmatRows_congr fun i hi b hb row hrow => hc j hj' t.2 ht' i hi b hb row hrow
    rw [e1, e2]
    rfl
  refine ⟨htX.trans htY.symm, ?_, ?_, ?_, a1⟩
  · show (if s.source.points = none ∧ dirAllBands s = true then some (dirKappa s w X) else none) =
      if (computed s ts).source.points = none ∧ dirAllBands (computed s ts) = true then
        some (dirKappa (computed s ts) w Y) else none
    rw [hp, hk]
    rfl
  · intro j hj t ht
    rw [show ({ state := Y, kappa := _ } : DirResult K).state.temps = ts from htY] at ht
    exact hg j hj t ht
  · intro j hj t ht
    rw [show ({ state := Y, kappa := _ } : DirResult K).state.temps = ts from htY] at ht
    exact hc j hj t ht

/-! ### Files of a run -/

/-- An array with the rows `g` of the collision matrix at a sigma and grid point, for all bands or
one. -/
def RowsAre (numBand : Nat) (rowDims : List Nat) (ts : List ℚ)
    (g : Option ℚ → ℚ → Nat → Nat → List Nat → K) (sigma : Option ℚ) (gp : Nat) :
    Option Nat → NdArr K → Prop
  | none, a => a.dims = [ts.length, numBand] ++ rowDims ∧ ∀ t < ts.length, ∀ b < numBand, ∀ row,
      List.Forall₂ (· < ·) row rowDims → a.val ([t, b] ++ row) = g sigma (ts.getD t 0) gp b row
  | some b, a => a.dims = [ts.length] ++ rowDims ∧ ∀ t < ts.length, ∀ row,
      List.Forall₂ (· < ·) row rowDims → a.val ([t] ++ row) = g sigma (ts.getD t 0) gp b row

/-- A file with the data of a sigma, grid point and band or bands. -/
structure PieceIs (s : DirSettings) (w : DirWorld K) (ts : List ℚ) (sigma : Option ℚ) (gp : Nat)
    (band : Option Nat) (f : ColFile K) : Prop where
  temps : f.temps = ts
  gamma : RowIs s.numBand ts w.gamma sigma gp band f.gamma
  colmat : RowsAre s.numBand (w.rowDims s.reducible) ts (w.colmat s.reducible) sigma gp band f.colmat

/-- The data of the whole mesh. -/
def meshData (s : DirSettings) (w : DirWorld K) (ts : List ℚ) : Collisions K :=
  (dirLoop (computed s ts) w w.meshPoints.zipIdx (dirInit s ts)).1.data

/-- Positions of the grid points of the mesh. -/
def meshPlace (s : DirSettings) (w : DirWorld K) (i : Nat) : Nat :=
  dirPlace s w (w.meshPoints.getD i 0) i

theorem dirLoop_value (hp : s.source.points = none) (l : List (Nat × Nat)) (st : DirState K)
    (hr : st.read = false) (i gp : Nat) (hu : ∀ g ∈ l, dirPlace s w g.1 g.2 = i → g.1 = gp) :
    (∀ j t k, ((∃ g ∈ l, dirPlace s w g.1 g.2 = i) ∨ st.data.gamma j t i k =
        w.gamma (s.sigmas.getD j none) (st.temps.getD t 0) gp (s.bands.getD k 0)) →
      (dirLoop s w l st).1.data.gamma j t i k =
        w.gamma (s.sigmas.getD j none) (st.temps.getD t 0) gp (s.bands.getD k 0)) ∧
    (∀ j t k row, ((∃ g ∈ l, dirPlace s w g.1 g.2 = i) ∨ st.data.colmat j t i k row =
        w.colmat s.reducible (s.sigmas.getD j none) (st.temps.getD t 0) gp (s.bands.getD k 0) row) →
      (dirLoop s w l st).1.data.colmat j t i k row =
        w.colmat s.reducible (s.sigmas.getD j none) (st.temps.getD t 0) gp (s.bands.getD k 0) row) := by
  induction l generalizing st with
  | nil =>
    constructor
    · rintro j t k (h | h)
      · simp at h
      · exact h
    · rintro j t k row (h | h)
      · simp at h
      · exact h
  | cons g l ih =>
    obtain ⟨gp0, i0⟩ := g
    obtain ⟨a1, a2⟩ := ih (dirPoint s w st gp0 i0) hr (fun g hg => hu g (by simp [hg]))
    have hgp : dirPlace s w gp0 i0 = i → gp0 = gp := hu (gp0, i0) (by simp)
    constructor
    · intro j t k hh
      refine a1 j t k ?_
      by_cases hi0 : i = dirPlace s w gp0 i0
      · right
        rw [dirPoint_gamma hp hr, ← hi0, setAt_same, hgp hi0.symm]
        rfl
      · rcases hh with ⟨g, hg, hgi⟩ | hh
        · rcases List.mem_cons.1 hg with rfl | hg
          · exact absurd hgi.symm hi0
          · exact .inl ⟨g, hg, hgi⟩
        · right
          rw [dirPoint_gamma hp hr, setAt_other _ _ hi0]
          exact hh
    · intro j t k row hh
      refine a2 j t k row ?_
      by_cases hi0 : i = dirPlace s w gp0 i0
      · right
        rw [dirPoint_colmat hp hr, ← hi0, setAt_same, hgp hi0.symm]
        rfl
      · rcases hh with ⟨g, hg, hgi⟩ | hh
        · rcases List.mem_cons.1 hg with rfl | hg
          · exact absurd hgi.symm hi0
          · exact .inl ⟨g, hg, hgi⟩
        · right
          rw [dirPoint_colmat hp hr, setAt_other _ _ hi0]
          exact hh

theorem dirLoop_unvisited (hp : s.source.points = none) (l : List (Nat × Nat)) (st : DirState K)
    (hr : st.read = false) (i : Nat) (hu : ∀ g ∈ l, dirPlace s w g.1 g.2 ≠ i) (j t : Nat) :
    (dirLoop s w l st).1.data.gamma j t i = st.data.gamma j t i ∧
    (dirLoop s w l st).1.data.colmat j t i = st.data.colmat j t i := by
  induction l generalizing st with
  | nil => exact ⟨rfl, rfl⟩
  | cons g l ih =>
    obtain ⟨gp0, i0⟩ := g
    obtain ⟨a1, a2⟩ := ih (dirPoint s w st gp0 i0) hr (fun g hg => hu g (by simp [hg]))
    have hne : i ≠ dirPlace s w gp0 i0 := fun h => hu (gp0, i0) (by simp) h.symm
    constructor
    · refine a1.trans ?_
      rw [dirPoint_gamma hp hr, setAt_other _ _ hne]
    · refine a2.trans ?_
      rw [dirPoint_colmat hp hr, setAt_other _ _ hne]

omit [Zero K] in
/-- Positions of different grid points of the mesh differ. -/
theorem place_unique (hm : MeshOK s w) {gp i : Nat} (h : (gp, i) ∈ w.meshPoints.zipIdx) :
    ∀ g ∈ w.meshPoints.zipIdx, dirPlace s w g.1 g.2 = dirPlace s w gp i → g.1 = gp := by
  intro g hg he
  have h1 := zipIdx_getElem? h
  have h2 := zipIdx_getElem? hg
  unfold dirPlace at he
  split at he
  · rename_i hred
    exact hm.place_inj hred _ (List.mem_of_getElem? h2) _ (List.mem_of_getElem? h1) he
  · rw [he] at h2
    have : some gp = some g.1 := h1.symm.trans h2
    exact (Option.some.inj this).symm

theorem meshData_at (hm : MeshOK s w) (ts : List ℚ) {gp i : Nat} (h : w.meshPoints[i]? = some gp)
    (j t k : Nat) :
    (meshData s w ts).gamma j t (meshPlace s w i) k =
      w.gamma (s.sigmas.getD j none) (ts.getD t 0) gp (s.bands.getD k 0) ∧
    ∀ row, (meshData s w ts).colmat j t (meshPlace s w i) k row =
      w.colmat s.reducible (s.sigmas.getD j none) (ts.getD t 0) gp (s.bands.getD k 0) row := by
  have hz : (gp, i) ∈ w.meshPoints.zipIdx := List.mem_zipIdx_iff_getElem?.2 h
  have hpl : meshPlace s w i = dirPlace s w gp i := by
    unfold meshPlace
    rw [List.getD_eq_getElem?_getD, h, Option.getD_some]
  have hm' : MeshOK (computed s ts) w := ⟨hm.place_lt, hm.place_inj⟩
  obtain ⟨a1, a2⟩ := dirLoop_value (s := computed s ts) (w := w) rfl w.meshPoints.zipIdx (dirInit s ts)
    rfl (dirPlace (computed s ts) w gp i) gp (place_unique hm' hz)
  rw [hpl]
  exact ⟨a1 j t k (.inl ⟨_, hz, rfl⟩), fun row => a2 j t k row (.inl ⟨_, hz, rfl⟩)⟩

/-- The calculation that reads: all temperatures and bands, and there is something to read. -/
structure Reads (s : DirSettings) (w : DirWorld K) (ts : List ℚ) : Prop where
  source : s.source = .stored .all
  bands : s.bands = List.range s.numBand
  some_temp : ts ≠ []
  some_sigma : s.sigmas ≠ []
  some_point : w.meshPoints ≠ []
  some_band : s.numBand ≠ 0
  mesh : MeshOK s w

variable {ts : List ℚ}

/-- The directories that are good for a calculation. -/
abbrev GoodCols (s : DirSettings) (w : DirWorld K) (ts : List ℚ) (d : Disk (ColFile K)) : Prop :=
  Holds colKind (dirStore s w ts.length s.inName) (ColGood (dirStore s w ts.length s.inName) ts
    (w.rowDims s.reducible) (dirPlaces s w) (meshPlace s w) (meshData s w ts)) d

omit [Zero K] in
theorem reads_points (hs : Reads s w ts) : dirPoints s w = w.meshPoints := by
  unfold dirPoints; rw [hs.source]; rfl

omit [Zero K] in
theorem reads_numBand (hs : Reads s w ts) (n : Nat) (name : Option (List Char)) :
    (dirStore s w n name).numBand = s.numBand := by
  show s.bands.length = _
  rw [hs.bands]; simp

theorem pieceIs_good (hs : Reads s w ts) {sigma : Option ℚ} {gp : Nat} {band : Option Nat}
    {f : ColFile K} (hf : PieceIs s w ts sigma gp band f) {j i : Nat}
    (hj : s.sigmas[j]? = some sigma) (hi : w.meshPoints[i]? = some gp) :
    ColGood (dirStore s w ts.length s.inName) ts (w.rowDims s.reducible) (dirPlaces s w)
      (meshPlace s w) (meshData s w ts) j (bandPiece i band) f := by
  have e1 : s.sigmas.getD j none = sigma := by
    rw [List.getD_eq_getElem?_getD, hj, Option.getD_some]
  have hbd : ∀ b < s.numBand, s.bands.getD b 0 = b := fun b hb => bands_getD hs.bands hb rfl
  have hnb := reads_numBand hs ts.length s.inName
  obtain ⟨h1, h2, h3⟩ := hf
  rw [good_iff]
  cases band with
  | none =>
    refine ⟨h1, ⟨by rw [h2.1, hnb]; rfl, ?_⟩, by rw [h3.1, hnb]; rfl, ?_⟩
    · intro t i' b idx ht _ hb hidx
      simp only [slotted, bandPiece, Piece.index] at hidx
      split at hidx
      · rename_i h
        rw [Option.some.injEq] at hidx
        subst hidx
        subst h
        rw [hnb] at hb
        rw [(meshData_at hs.mesh ts hi j t b).1, e1, hbd b hb]
        exact h2.2 t ht b hb
      · simp at hidx
    · intro t i' b idx row ht _ hb hidx hrow
      simp only [slotted, bandPiece, Piece.index] at hidx
      split at hidx
      · rename_i h
        rw [Option.some.injEq] at hidx
        subst hidx
        subst h
        rw [hnb] at hb
        rw [(meshData_at hs.mesh ts hi j t b).2 row, e1, hbd b hb]
        exact h3.2 t ht b hb row hrow
      · simp at hidx
  | some b0 =>
    refine ⟨h1, ⟨by rw [h2.1]; rfl, ?_⟩, by rw [h3.1]; rfl, ?_⟩
    · intro t i' b idx ht _ hb hidx
      simp only [slotted, bandPiece, Piece.index] at hidx
      split at hidx
      · rename_i h
        obtain ⟨h, h'⟩ := h
        rw [Option.some.injEq] at hidx
        subst hidx
        subst h
        subst h'
        rw [hnb] at hb
        rw [(meshData_at hs.mesh ts hi j t b).1, e1, hbd b hb]
        exact h2.2 t ht
      · simp at hidx
    · intro t i' b idx row ht _ hb hidx hrow
      simp only [slotted, bandPiece, Piece.index] at hidx
      split at hidx
      · rename_i h
        obtain ⟨h, h'⟩ := h
        rw [Option.some.injEq] at hidx
        subst hidx
        subst h
        subst h'
        rw [hnb] at hb
        rw [(meshData_at hs.mesh ts hi j t b).2 row, e1, hbd b hb]
        exact h3.2 t ht row hrow
      · simp at hidx

/-- A file of a grid point, of the mesh or not, keeps the directory good. -/
theorem pieceIs_put (hs : Reads s w ts) (hr : Separate (dirStore s w ts.length s.inName))
    {d : Disk (ColFile K)} (h : GoodCols s w ts d) {sigma : Option ℚ} (hsig : sigma ∈ s.sigmas)
    {gp : Nat} {band : Option Nat} {f : ColFile K} (hf : PieceIs s w ts sigma gp band f) :
    GoodCols s w ts
      (d.put (pieceName colKind (dirStore s w ts.length s.inName) sigma (some gp) band) f) := by
  have hpts : (dirStore s w ts.length s.inName).gridPoints = w.meshPoints := reads_points hs
  refine holds_put_any h ?_
  intro j p hkey
  unfold keyName at hkey
  obtain ⟨s', hs', hkey⟩ := Option.bind_eq_some_iff.1 hkey
  have hm : s' ∈ (dirStore s w ts.length s.inName).sigmas := List.mem_of_getElem? hs'
  obtain ⟨j0, hj0⟩ := List.mem_iff_getElem?.1 hsig
  have hjj : WithinMillionth s' sigma → s' = sigma ∧ s.sigmas[j]? = some sigma := by
    intro hw
    have : j = j0 := hr.sigma_apart j j0 s' sigma hs' hj0 hw
    subst this
    have h2 : some s' = some sigma := hs'.symm.trans hj0
    exact ⟨Option.some.inj h2, hj0⟩
  cases p with
  | all =>
    simp only [Option.some.injEq] at hkey
    have := (pieceName_inj hr hm hsig hkey).1
    simp at this
  | point i =>
    obtain ⟨g, hg, hkey⟩ := Option.map_eq_some_iff.1 hkey
    obtain ⟨h1, h2, h3⟩ := pieceName_inj hr hm hsig hkey
    simp only [Option.some.injEq] at h1
    subst h1; subst h2
    rw [hpts] at hg
    exact pieceIs_good hs hf (hjj h3).2 hg
  | band i b =>
    obtain ⟨g, hg, hkey⟩ := Option.map_eq_some_iff.1 hkey
    obtain ⟨h1, h2, h3⟩ := pieceName_inj hr hm hsig hkey
    simp only [Option.some.injEq] at h1
    subst h1; subst h2
    rw [hpts] at hg
    exact pieceIs_good hs hf (hjj h3).2 hg

/-- Each file of a grid point in a computing run holds the data of this grid point. -/
theorem piecePuts_files (p : DirSettings) (w : DirWorld K) (st : DirState K) (hread : st.read = false)
    (hb : dirAllBands p = true → p.bands.length = p.numBand) (gp i : Nat)
    (x : DirPut K) (hx : x ∈ dirPieces p w (dirPoint p w st gp i) gp i) :
    ∃ sigma ∈ p.sigmas, ∃ band,
      x.name = pieceName colKind (dirStore p w st.temps.length p.outName) sigma (some gp) band ∧
      PieceIs p w st.temps sigma gp band x.file := by
  have hg : ∀ j t k, (dirPoint p w st gp i).data.gamma j t (dirSlot p w gp i) k =
      w.gamma (p.sigmas.getD j none) (st.temps.getD t 0) gp (p.bands.getD k 0) := by
    intro j t k
    simp [dirPoint, hread, setAt]
  have hc : ∀ j t k row, (dirPoint p w st gp i).data.colmat j t (dirSlot p w gp i) k row =
      w.colmat p.reducible (p.sigmas.getD j none) (st.temps.getD t 0) gp (p.bands.getD k 0) row := by
    intro j t k row
    simp [dirPoint, hread, setAt]
  have ht : (dirPoint p w st gp i).temps = st.temps := rfl
  unfold dirPieces at hx
  split at hx
  · rw [ht] at hx
    unfold piecePuts at hx
    cases hall : dirAllBands p with
    | true =>
      rw [hall, if_pos rfl] at hx
      have hbr : p.bands = List.range p.numBand := by simpa [dirAllBands] using hall
      have hlen := hb hall
      obtain ⟨sj, hsj, rfl⟩ := List.mem_map.1 hx
      have hsig : p.sigmas[sj.2]? = some sj.1 := zipIdx_getElem? hsj
      have hget : p.sigmas.getD sj.2 none = sj.1 := by
        rw [List.getD_eq_getElem?_getD, hsig, Option.getD_some]
      refine ⟨sj.1, List.mem_of_getElem? hsig, none, rfl, rfl, ⟨?_, ?_⟩, ⟨?_, ?_⟩⟩
      · show [_, p.bands.length] = _
        rw [hlen]; rfl
      · intro t _ b hb'
        show (dirPoint p w st gp i).data.gamma sj.2 t (dirSlot p w gp i) b = _
        rw [hg, hget, bands_getD hbr hb' rfl]
      · show [_, p.bands.length] ++ _ = _
        rw [hlen]; rfl
      · intro t _ b hb' row _
        show (dirPoint p w st gp i).data.colmat sj.2 t (dirSlot p w gp i) b row = _
        rw [hc, hget, bands_getD hbr hb' rfl]
    | false =>
      rw [hall, if_neg (by simp)] at hx
      obtain ⟨sj, hsj, hx⟩ := List.mem_flatMap.1 hx
      obtain ⟨bk, hbk, rfl⟩ := List.mem_map.1 hx
      have hsig : p.sigmas[sj.2]? = some sj.1 := zipIdx_getElem? hsj
      have hget : p.sigmas.getD sj.2 none = sj.1 := by
        rw [List.getD_eq_getElem?_getD, hsig, Option.getD_some]
      have hbnd := zipIdx_getElem? hbk
      have hbg : p.bands.getD bk.2 0 = bk.1 := by
        rw [List.getD_eq_getElem?_getD, hbnd, Option.getD_some]
      refine ⟨sj.1, List.mem_of_getElem? hsig, some bk.1, rfl, rfl, ⟨rfl, ?_⟩, ⟨rfl, ?_⟩⟩
      · intro t _
        show (dirPoint p w st gp i).data.gamma sj.2 t (dirSlot p w gp i) bk.2 = _
        rw [hg, hget, hbg]
      · intro t _ row _
        show (dirPoint p w st gp i).data.colmat sj.2 t (dirSlot p w gp i) bk.2 row = _
        rw [hc, hget, hbg]
  · simp at hx

theorem dirLoop_files (p : DirSettings) (w : DirWorld K)
    (hb : dirAllBands p = true → p.bands.length = p.numBand) (l : List (Nat × Nat))
    (st : DirState K) (hread : st.read = false) :
    ∀ x ∈ (dirLoop p w l st).2, ∃ sigma ∈ p.sigmas, ∃ gp band,
      x.name = pieceName colKind (dirStore p w st.temps.length p.outName) sigma (some gp) band ∧
      PieceIs p w st.temps sigma gp band x.file := by
  induction l generalizing st with
  | nil => intro x hx; simp [dirLoop] at hx
  | cons g l ih =>
    intro x hx
    simp only [dirLoop] at hx
    rcases List.mem_append.1 hx with hx | hx
    · obtain ⟨sigma, h1, band, h2⟩ := piecePuts_files p w st hread hb g.1 g.2 x hx
      exact ⟨sigma, h1, g.1, band, h2⟩
    · exact ih (dirPoint p w st g.1 g.2) hread x hx

omit [Zero K] in
theorem allBands_length {p : DirSettings} (h : dirAllBands p = true) : p.bands.length = p.numBand := by
  have : p.bands = List.range p.numBand := by simpa [dirAllBands] using h
  rw [this]; simp

/-- Every file of a run of the calculation keeps the directory good. -/
theorem dirRun_puts (hs : Reads s w ts) (hr : Separate (dirStore s w ts.length s.inName))
    {p : DirSettings} (hp : DirPiece s ts p) (d : Disk (ColFile K)) (x : DirPut K)
    (hx : x ∈ (dirRun p w d).puts) (d' : Disk (ColFile K)) (hd' : GoodCols s w ts d') :
    GoodCols s w ts (d'.put x.name x.file) := by
  obtain ⟨points, hsrc⟩ := hp.source
  have hrun : dirRun p w d = dirGo p w p.writeSolution (dirInit p ts) := by
    unfold dirRun
    rw [hsrc]
  rw [hrun] at hx
  unfold dirGo dirFinish at hx
  rcases List.mem_append.1 hx with hx | hx
  · obtain ⟨sigma, hsig, gp, band, hn, hf⟩ := dirLoop_files p w allBands_length _ (dirInit p ts) rfl x hx
    have hf' : PieceIs s w ts sigma gp band x.file := by
      obtain ⟨h1, h2, h3⟩ := hf
      rw [hp.numBand] at h2 h3
      rw [hp.reducible] at h3
      exact ⟨h1, h2, h3⟩
    rw [hp.sigmas] at hsig
    rw [hn, pieceName_congr colKind (r := dirStore s w ts.length s.inName) hp.mesh hp.cutoff hp.name]
    exact pieceIs_put hs hr hd' hsig hf'
  · split at hx
    · rename_i hsol
      obtain ⟨hpn, hall⟩ := hp.solution hsol
      have hpts : dirPoints p w = w.meshPoints := by unfold dirPoints; rw [hpn]; rfl
      have hbp : p.bands = List.range p.numBand := by simpa [dirAllBands] using hall
      have hbands : p.bands = s.bands := by rw [hbp, hs.bands, hp.numBand]
      have htemps := (dirLoop_keeps p w (dirPoints p w).zipIdx (dirInit p ts)).2
      have hpl : dirPlaces p w = dirPlaces s w := by
        unfold dirPlaces; rw [hp.reducible, hpts, reads_points hs]
      have hst : dirStored p w = dirPlaces s w := by
        unfold dirStored; rw [hpn]; exact hpl
      rw [hpts] at hx htemps
      have hdata : ∀ j t i k, (dirLoop p w w.meshPoints.zipIdx (dirInit p ts)).1.data.gamma j t i k =
            (meshData s w ts).gamma j t i k ∧
          ∀ row, (dirLoop p w w.meshPoints.zipIdx (dirInit p ts)).1.data.colmat j t i k row =
            (meshData s w ts).colmat j t i k row := by
        have hiso : (dirInit p ts : DirState K).data = (dirInit s ts : DirState K).data := rfl
        let st1 : DirState K := { (dirInit p ts : DirState K) with iso := none }
        intro j t i k
        by_cases hu : Unvisited s w i
        · have hu1 : ∀ g ∈ w.meshPoints.zipIdx, dirPlace p w g.1 g.2 ≠ i := by
            intro g hg h
            apply hu g hg
            unfold dirPlace at h ⊢
            rw [hp.reducible] at h
            exact h
          obtain ⟨a1, a2⟩ := dirLoop_unvisited hpn w.meshPoints.zipIdx (dirInit p ts) rfl i hu1 j t
          obtain ⟨b1, b2⟩ := dirLoop_unvisited (s := computed s ts) rfl w.meshPoints.zipIdx
            (dirInit s ts : DirState K) rfl i hu j t
          unfold meshData
          rw [a1, b1]
          refine ⟨rfl, fun row => ?_⟩
          rw [a2, b2]
          rfl
        · unfold Unvisited at hu
          push Not at hu
          obtain ⟨⟨gp, i0⟩, hg, hgi⟩ := hu
          have hget := zipIdx_getElem? hg
          have hpl2 : dirPlace p w gp i0 = dirPlace s w gp i0 := by
            unfold dirPlace; rw [hp.reducible]
          have hmp : MeshOK p w := by
            refine ⟨?_, ?_⟩
            · rw [hp.reducible]; exact hs.mesh.place_lt
            · rw [hp.reducible]; exact hs.mesh.place_inj
          obtain ⟨a1, a2⟩ := dirLoop_value (s := p) (w := w) hpn w.meshPoints.zipIdx (dirInit p ts)
            rfl (dirPlace p w gp i0) gp (place_unique hmp hg)
          have hmd := meshData_at hs.mesh ts hget j t k
          have hmpl : meshPlace s w i0 = i := by
            rw [← hgi]
            unfold meshPlace
            rw [List.getD_eq_getElem?_getD, hget, Option.getD_some]
          rw [hmpl] at hmd
          have hgi' : dirPlace p w gp i0 = i := hpl2.trans hgi
          have c1 := a1 j t k (.inl ⟨_, hg, rfl⟩)
          have c2 := fun row => a2 j t k row (.inl ⟨_, hg, rfl⟩)
          rw [hgi', hp.sigmas, hbands] at c1
          simp only [hgi', hp.sigmas, hbands, hp.reducible] at c2
          refine ⟨c1.trans hmd.1.symm, fun row => (c2 row).trans (hmd.2 row).symm⟩
      generalize (dirLoop p w w.meshPoints.zipIdx (dirInit p ts)).1 = X at hx htemps hdata
      unfold wholePuts at hx
      obtain ⟨sj, hsj, rfl⟩ := List.mem_map.1 hx
      have hsig : p.sigmas[sj.2]? = some sj.1 := zipIdx_getElem? hsj
      rw [hp.sigmas] at hsig
      have htX : X.temps = ts := htemps
      have hn : keyName colKind (dirStore s w ts.length s.inName) sj.2 .all =
          some (pieceName colKind (dirStore p w X.temps.length p.outName) sj.1 none none) := by
        unfold keyName
        show (s.sigmas[sj.2]?).bind _ = _
        rw [hsig]
        show some _ = some _
        rw [pieceName_congr colKind (r := dirStore s w ts.length s.inName)
          (r' := dirStore p w X.temps.length p.outName) hp.mesh hp.cutoff hp.name]
      refine holds_put hr hd' hn ?_
      rw [good_iff]
      refine ⟨htX, ⟨?_, ?_⟩, ?_, ?_⟩
      · show [X.temps.length, dirPlaces p w, p.bands.length] = [ts.length, dirPlaces s w, s.bands.length]
        rw [htX, hpl, hbands]
      · intro t i b idx _ _ _ hidx
        simp only [slotted, Piece.index, Option.some.injEq] at hidx
        subst hidx
        exact (hdata sj.2 t i b).1
      · show [X.temps.length, dirStored p w, p.bands.length] ++ w.rowDims p.reducible =
          [ts.length, dirPlaces s w, s.bands.length] ++ w.rowDims s.reducible
        rw [htX, hst, hbands, hp.reducible]
      · intro t i b idx row _ _ _ hidx _
        simp only [slotted, Piece.index, Option.some.injEq] at hidx
        subst hidx
        exact (hdata sj.2 t i b).2 row
    · simp at hx

theorem dirRuns_good (hs : Reads s w ts) (hr : Separate (dirStore s w ts.length s.inName))
    (l : List (DirSettings × Nat)) (hl : ∀ p ∈ l, DirPiece s ts p.1) {d : Disk (ColFile K)}
    (hd : GoodCols s w ts d) : GoodCols s w ts (dirRuns w l d) := by
  unfold dirRuns
  refine foldl_keep _ _ _ hd ?_
  intro d p hp hd
  unfold dirKilled dirPutAll
  refine foldl_keep _ _ _ hd ?_
  intro d' x hx hd'
  exact dirRun_puts hs hr (hl p hp) d x (List.mem_of_mem_take hx) d' hd'

/-! ### Reading good directories -/

theorem meshGetD {l : List Nat} {i : Nat} (h : i < l.length) : l.getD i 0 = l[i] := by
  simp [List.getD_eq_getElem?_getD, h]

omit [Zero K] in
theorem reads_setting (hs : Reads s w ts) (hr : Separate (dirStore s w ts.length s.inName)) :
    ColSetting (dirStore s w ts.length s.inName) ts (dirPlaces s w) (meshPlace s w) := by
  have hpts : (dirStore s w ts.length s.inName).gridPoints = w.meshPoints := reads_points hs
  have hnd : w.meshPoints.Nodup := hpts ▸ hr.points
  refine ⟨rfl, List.length_pos_iff.2 hs.some_temp, List.length_pos_iff.2 hs.some_sigma, ?_, ?_, ?_, ?_⟩
  · rw [hpts]; exact List.length_pos_iff.2 hs.some_point
  · rw [reads_numBand hs]; exact Nat.pos_of_ne_zero hs.some_band
  · rw [hpts]
    intro i i' hi hi' h
    unfold meshPlace dirPlace at h
    rw [meshGetD hi, meshGetD hi'] at h
    split at h
    · rename_i hred
      have := hs.mesh.place_inj hred _ (List.getElem_mem hi) _ (List.getElem_mem hi') h
      exact (List.Nodup.getElem_inj_iff hnd).1 this
    · exact h
  · rw [hpts]
    intro i hi
    unfold meshPlace dirPlace dirPlaces
    rw [meshGetD hi, reads_points hs]
    split
    · rename_i hred
      exact hs.mesh.place_lt hred _ (List.getElem_mem hi)
    · exact hi

theorem good_cols_read (hs : Reads s w ts) (hr : Separate (dirStore s w ts.length s.inName))
    {d : Disk (ColFile K)} (hd : GoodCols s w ts d)
    (hc : ColCovered (dirStore s w ts.length s.inName) d) :
    ∃ v, dirRead s w .all d = some (some v) ∧ v.temps = some ts ∧
      ∀ i < dirPlaces s w, Unvisited s w i → ∀ j < s.sigmas.length, ∀ t < ts.length,
        ∀ b < s.bands.length, v.gamma j t i b = 0 ∧
          ∀ row, List.Forall₂ (· < ·) row (w.rowDims s.reducible) → v.colmat j t i b row = 0 := by
  have hx := reads_setting hs hr
  have hzero : ∀ i, Unvisited s w i → ∀ j t b, (meshData s w ts).gamma j t i b = 0 ∧
      ∀ row, (meshData s w ts).colmat j t i b row = 0 := by
    intro i hu j t b
    obtain ⟨b1, b2⟩ := dirLoop_unvisited (s := computed s ts) rfl w.meshPoints.zipIdx
      (dirInit s ts : DirState K) rfl i hu j t
    unfold meshData
    rw [b1]
    refine ⟨rfl, fun row => ?_⟩
    rw [b2]
    rfl
  obtain ⟨time, htime⟩ := exists_time (d := d) hx.slot_inj
  obtain ⟨st', h1, h2, h3⟩ := (collectSigmas_spec hx.some_temp hx.temps hx.some_point hx.some_band hd
    htime (dirStore s w ts.length s.inName).sigmas.zipIdx (fun s hs => zipIdx_getElem? hs)
    (D := fun _ i _ => Unvisited s w i)
    (st := { gamma := fun _ _ _ _ => 0, colmat := fun _ _ _ _ _ => 0 })
    ⟨rfl, fun j t i b _ _ _ hu => ((hzero i hu j _ b).1).symm,
      fun j t i b row _ _ _ _ hu => ((hzero i hu j t b).2 row).symm⟩).1 (fun s hs =>
      hc s.2 (List.getElem?_eq_some_iff.1 (zipIdx_getElem? hs)).1)
  have hne : st'.temps ≠ none := h3 (.inl (by
    intro h
    have := congrArg List.length h
    rw [List.length_zipIdx] at this
    have := hx.some_sigma
    simp_all))
  have hal : allocateOnce ts st' = st' := by
    unfold allocateOnce
    split
    · rfl
    · rename_i h; exact absurd h hne
  rw [hal] at h2
  refine ⟨st', ?_, h2.temps, ?_⟩
  · unfold dirRead
    rw [C143_all]
    exact h1
  · intro i hi hu j _ t ht b hb
    refine ⟨?_, fun row hrow => ?_⟩
    · rw [h2.gamma j t i b ht hi hb (.inl hu)]
      exact (hzero i hu _ _ _).1
    · rw [h2.colmat j t i b row ht hi hb hrow (.inl hu)]
      exact (hzero i hu _ _ _).2 row

/-! ### The claim -/

/-- **C158 (resuming).** Runs of a calculation at any grid points and bands, in any order, killed
anywhere, leave files from which, once they cover the mesh, a run with `read_collision` over the whole
mesh gives the same temperatures, conductivity, linewidths, collision matrix and isotope linewidths as
one run that computes everything.  Partial: the claim wants the stored numbers to be used, and a run
with selected grid points to be free to ask for the file with everything; neither is so
(`C158_not_used`, `C158_part_solution`). -/
theorem C158_resume_partial (hs : Reads s w ts) (hr : Separate (dirStore s w ts.length s.inName))
    (l : List (DirSettings × Nat)) (hl : ∀ p ∈ l, DirPiece s ts p.1)
    (hc : ColCovered (dirStore s w ts.length s.inName) (dirRuns w l fun _ => none))
    (d' : Disk (ColFile K)) :
    ∃ x y, (dirRun s w (dirRuns w l fun _ => none)).outcome = .result x ∧
      (dirRun (computed s ts) w d').outcome = .result y ∧ y.state.temps = ts ∧
      SameDirect s w x y := by
  have hgood : GoodCols s w ts (dirRuns w l fun _ => none) :=
    dirRuns_good hs hr l hl (by intro j p n f _ hf; simp at hf)
  obtain ⟨v, h1, h2, h3⟩ := good_cols_read hs hr hgood hc
  exact read_recomputes hs.source h1 h2 h3 d'

theorem dirLoop_writeSolution (l : List (Nat × Nat)) (st : DirState K) :
    dirLoop { s with writeSolution := false } w l st = dirLoop s w l st := by
  induction l generalizing st with
  | nil => rfl
  | cons g l ih =>
    show (_, _) = (_, _)
    rw [show dirPoint { s with writeSolution := false } w st g.1 g.2 = dirPoint s w st g.1 g.2 from rfl, ih]
    rfl

/-- **C158 (files with everything).** Where the file with everything for the last sigma is there, a run
with `read_collision` writes as without `write_LBTE_solution`, also if files of other sigmas are
missing. -/
theorem C158_last_sigma {ix : ColIndices} (hs : s.source = .stored ix) (sigma : Option ℚ)
    (l : List (Option ℚ)) (hl : s.sigmas = l ++ [sigma]) (d : Disk (ColFile K))
    (hd : (d (pieceName "collision".toList (dirStore s w 0 s.inName) sigma none none)).isSome) :
    dirRun s w d = dirRun { s with writeSolution := false } w d := by
  have h : readFromPoints (dirStore s w 0 s.inName) d = false := by
    have e : (dirStore s w 0 s.inName).sigmas.getLast? = some sigma := by
      show s.sigmas.getLast? = _
      rw [hl]
      simp
    unfold readFromPoints
    rw [e]
    simp only
    rw [Option.isNone_eq_false_iff]
    exact hd
  have e1 := dirRun_stored (w := w) hs d
  have e2 := dirRun_stored (s := { s with writeSolution := false }) (w := w) hs d
  rw [h] at e1
  rw [e1, e2]
  have r : dirRead { s with writeSolution := false } w ix d = dirRead s w ix d := rfl
  rw [r]
  rcases dirRead s w ix d with _ | _ | v
  · rfl
  · rfl
  · rcases hv : v.temps with _ | ts
    · simp only [dirAfterRead, hv]
    · simp only [dirAfterRead, hv, Bool.and_false, Bool.false_and]
      have t : dirTake { s with writeSolution := false } ts v = dirTake s ts v := rfl
      rw [t]
      exact (congrArg (fun z => dirFinish s w false z) (dirLoop_writeSolution _ _)).symm

/-- **C158 (stored data are not used).** With one collision matrix over irreducible grid points, a run
with `read_collision` that gets through the reading of a directory gives the result of a run that
computes everything at the temperatures of the files, whatever linewidths and collision matrices are
in the files. -/
theorem C158_not_used {ix : ColIndices} (hs : s.source = .stored ix) (hred : s.reducible = false)
    (d : Disk (ColFile K)) {x : DirResult K} (hx : (dirRun s w d).outcome = .result x)
    (d' : Disk (ColFile K)) :
    ∃ y, (dirRun (computed s x.state.temps) w d').outcome = .result y ∧ SameDirect s w x y := by
  have hpts : dirPoints s w = w.meshPoints := by unfold dirPoints; rw [hs]; rfl
  have hpl : dirPlaces s w = w.meshPoints.length := by
    unfold dirPlaces; rw [hred, hpts]; rfl
  rw [dirRun_stored hs] at hx
  cases hv : dirRead s w ix d with
  | none => rw [hv] at hx; simp [dirAfterRead] at hx
  | some o =>
    cases o with
    | none => rw [hv] at hx; simp [dirAfterRead] at hx
    | some v =>
      cases hts : v.temps with
      | none => rw [hv] at hx; simp [dirAfterRead, hts] at hx
      | some ts =>
        obtain ⟨x', y, h1, h2, h3, h4⟩ := read_recomputes hs hv hts
          (fun i hi hu => absurd hu (ir_visited hred (hpl ▸ hi))) d'
        rw [dirRun_stored hs, hx] at h1
        cases h1
        rw [h4.temps, h3]
        exact ⟨y, h2, h4⟩

/-! ### When the mesh is covered -/

theorem dirPutAll_isSome {d : Disk (ColFile K)} {n : List Char} (h : (d n).isSome)
    (l : List (DirPut K)) : (dirPutAll d l n).isSome := by
  unfold dirPutAll
  refine foldl_keep (P := fun d : Disk (ColFile K) => (d n).isSome) _ _ _ h ?_
  intro d x _ hd
  show (Disk.put d x.name x.file n).isSome
  unfold Disk.put
  split
  · rfl
  · exact hd

theorem dirPutAll_mem {d : Disk (ColFile K)} {n : List Char} {l : List (DirPut K)}
    (h : n ∈ l.map DirPut.name) : (dirPutAll d l n).isSome := by
  obtain ⟨x, hx, rfl⟩ := List.mem_map.1 h
  unfold dirPutAll
  refine foldl_reach (P := fun d : Disk (ColFile K) => (d x.name).isSome) _ _ _ x hx ?_ ?_
  · intro d
    simp [Disk.put]
  · intro d y _ hd
    show (Disk.put d y.name y.file x.name).isSome
    unfold Disk.put
    split
    · rfl
    · exact hd

omit [Zero K] in
theorem piecePuts_names (p : DirSettings) (r : StoreArgs) (rowDims : List Nat) (st : DirState K)
    (slot gp : Nat) {sigma : Option ℚ} (hs : sigma ∈ r.sigmas) :
    (dirAllBands p = true → pieceName colKind r sigma (some gp) none ∈
      (piecePuts r rowDims (dirAllBands p) p.bands st slot gp).map DirPut.name) ∧
    (dirAllBands p = false → ∀ b ∈ p.bands, pieceName colKind r sigma (some gp) (some b) ∈
      (piecePuts r rowDims (dirAllBands p) p.bands st slot gp).map DirPut.name) := by
  obtain ⟨j, hj⟩ := List.mem_iff_getElem?.1 hs
  have hz : (sigma, j) ∈ r.sigmas.zipIdx := List.mem_zipIdx_iff_getElem?.2 hj
  constructor
  · intro h
    rw [h]
    unfold piecePuts
    rw [if_pos rfl]
    exact List.mem_map.2 ⟨_, List.mem_map.2 ⟨_, hz, rfl⟩, rfl⟩
  · intro h b hb
    rw [h]
    obtain ⟨k, hk⟩ := List.mem_iff_getElem?.1 hb
    have hbz : (b, k) ∈ p.bands.zipIdx := List.mem_zipIdx_iff_getElem?.2 hk
    unfold piecePuts
    rw [if_neg (by simp)]
    exact List.mem_map.2 ⟨_, List.mem_flatMap.2 ⟨_, hz, List.mem_map.2 ⟨_, hbz, rfl⟩⟩, rfl⟩

theorem dirLoop_names (p : DirSettings) (w : DirWorld K) (hw : p.writeCollision = true)
    (l : List (Nat × Nat)) (st : DirState K) :
    ∀ g ∈ l, ∀ sigma ∈ p.sigmas,
      (dirAllBands p = true → pieceName colKind (dirStore p w st.temps.length p.outName) sigma
        (some g.1) none ∈ (dirLoop p w l st).2.map DirPut.name) ∧
      (dirAllBands p = false → ∀ b ∈ p.bands,
        pieceName colKind (dirStore p w st.temps.length p.outName) sigma (some g.1) (some b) ∈
        (dirLoop p w l st).2.map DirPut.name) := by
  induction l generalizing st with
  | nil => intro g hg; simp at hg
  | cons g l ih =>
    obtain ⟨gp, i⟩ := g
    have hl : (dirLoop p w ((gp, i) :: l) st).2 =
        piecePuts (dirStore p w st.temps.length p.outName) (w.rowDims p.reducible) (dirAllBands p)
          p.bands (dirPoint p w st gp i) (dirSlot p w gp i) gp ++
          (dirLoop p w l (dirPoint p w st gp i)).2 := by
      show dirPieces p w (dirPoint p w st gp i) gp i ++ _ = _
      unfold dirPieces
      rw [if_pos hw]
      rfl
    rw [hl, List.map_append]
    intro g hg sigma hs
    rcases List.mem_cons.1 hg with rfl | hg
    · obtain ⟨h1, h2⟩ := piecePuts_names p (dirStore p w st.temps.length p.outName)
        (w.rowDims p.reducible) (dirPoint p w st gp i) (dirSlot p w gp i) gp hs
      exact ⟨fun h => List.mem_append_left _ (h1 h),
        fun h b hb => List.mem_append_left _ (h2 h b hb)⟩
    · obtain ⟨h1, h2⟩ := ih (dirPoint p w st gp i) g hg sigma hs
      exact ⟨fun h => List.mem_append_right _ (h1 h),
        fun h b hb => List.mem_append_right _ (h2 h b hb)⟩

/-- A run that came to its end leaves the files of its grid points. -/
theorem dirEnded_names {p : DirSettings × Nat} (hp : DirPiece s ts p.1)
    (hw : p.1.writeCollision = true) (hend : DirEnded w p) {gp : Nat} (hgp : gp ∈ dirPoints p.1 w)
    {sigma : Option ℚ} (hs : sigma ∈ s.sigmas) (d : Disk (ColFile K)) :
    (dirAllBands p.1 = true → (dirKilled p.1 w p.2 d
      (pieceName colKind (dirStore s w ts.length s.inName) sigma (some gp) none)).isSome) ∧
    (dirAllBands p.1 = false → ∀ b ∈ p.1.bands, (dirKilled p.1 w p.2 d
      (pieceName colKind (dirStore s w ts.length s.inName) sigma (some gp) (some b))).isSome) := by
  obtain ⟨points, hsrc⟩ := hp.source
  have hrun : dirRun p.1 w d = dirGo p.1 w p.1.writeSolution (dirInit p.1 ts) := by
    unfold dirRun
    rw [hsrc]
  have hall : (dirRun p.1 w d).puts.take p.2 = (dirRun p.1 w d).puts :=
    List.take_of_length_le (hend d)
  obtain ⟨i, hi⟩ := List.mem_iff_getElem?.1 hgp
  have hz : (gp, i) ∈ (dirPoints p.1 w).zipIdx := List.mem_zipIdx_iff_getElem?.2 hi
  have hs' : sigma ∈ p.1.sigmas := by rw [hp.sigmas]; exact hs
  obtain ⟨h1, h2⟩ := dirLoop_names p.1 w hw (dirPoints p.1 w).zipIdx (dirInit p.1 ts : DirState K)
    (gp, i) hz sigma hs'
  have hsub : ∀ n, n ∈ (dirLoop p.1 w (dirPoints p.1 w).zipIdx (dirInit p.1 ts)).2.map DirPut.name →
      n ∈ (dirRun p.1 w d).puts.map DirPut.name := by
    intro n hn
    rw [hrun]
    unfold dirGo dirFinish
    rw [List.map_append]
    exact List.mem_append_left _ hn
  have hname : ∀ b, pieceName colKind (dirStore s w ts.length s.inName) sigma (some gp) b =
      pieceName colKind (dirStore p.1 w ts.length p.1.outName) sigma (some gp) b := fun b =>
    (pieceName_congr colKind (r := dirStore s w ts.length s.inName)
      (r' := dirStore p.1 w ts.length p.1.outName) hp.mesh hp.cutoff hp.name sigma (some gp) b).symm
  unfold dirKilled
  rw [hall]
  refine ⟨fun h => ?_, fun h b hb => ?_⟩
  · rw [hname]
    exact dirPutAll_mem (hsub _ (h1 h))
  · rw [hname]
    exact dirPutAll_mem (hsub _ (h2 h b hb))

theorem dirRuns_reach {n : List Char} {p : DirSettings × Nat}
    (h : ∀ d : Disk (ColFile K), (dirKilled p.1 w p.2 d n).isSome)
    (l : List (DirSettings × Nat)) (hp : p ∈ l) (d : Disk (ColFile K)) :
    (dirRuns w l d n).isSome := by
  unfold dirRuns
  refine foldl_reach (P := fun d : Disk (ColFile K) => (d n).isSome) _ _ _ p hp h ?_
  intro d p _ hd
  exact dirPutAll_isSome hd _

/-- **C158 (completeness).** If every grid point of the mesh was done by runs that came to their end,
the files cover the mesh, whatever other runs were made or killed before, between or after. -/
theorem C158_done (hs : Reads s w ts) (l : List (DirSettings × Nat))
    (hl : ∀ p ∈ l, DirPiece s ts p.1) (hdone : DirAllDone w s.numBand l) (d : Disk (ColFile K)) :
    ColCovered (dirStore s w ts.length s.inName) (dirRuns w l d) := by
  intro j hj
  right
  intro i hi
  have hsig : s.sigmas[j]? = some s.sigmas[j] := List.getElem?_eq_getElem hj
  have hmem : s.sigmas[j] ∈ s.sigmas := List.getElem_mem _
  have hpts : (dirStore s w ts.length s.inName).gridPoints = w.meshPoints := reads_points hs
  obtain ⟨gp, hgp⟩ : ∃ gp, w.meshPoints[i]? = some gp := by
    rw [hpts] at hi
    exact ⟨_, List.getElem?_eq_getElem hi⟩
  have hgp' : (dirStore s w ts.length s.inName).gridPoints[i]? = some gp := by rw [hpts]; exact hgp
  rcases hdone gp (List.mem_of_getElem? hgp) with ⟨p, hp, h1, h2, h3, h4⟩ | hb
  · left
    refine ⟨_, ?_, dirRuns_reach (fun d => (dirEnded_names (hl p hp) h2 h4 h1 hmem d).1 h3) l hp d⟩
    show (s.sigmas[j]?).bind _ = _
    rw [hsig]
    show ((dirStore s w ts.length s.inName).gridPoints[i]?).map _ = _
    rw [hgp']; rfl
  · right
    intro b hb'
    rw [reads_numBand hs] at hb'
    obtain ⟨p, hp, h1, h2, h3, h4, h5⟩ := hb b hb'
    refine ⟨_, ?_, dirRuns_reach (fun d => (dirEnded_names (hl p hp) h2 h5 h1 hmem d).2 h3 b h4) l hp d⟩
    show (s.sigmas[j]?).bind _ = _
    rw [hsig]
    show ((dirStore s w ts.length s.inName).gridPoints[i]?).map _ = _
    rw [hgp']; rfl

/-! ### Where the claim fails -/

/-- The file with everything of a run at `n` grid points. -/
theorem whole_file (p : DirSettings) (w : DirWorld K) (hred : p.reducible = false) {ts : List ℚ}
    {pts : List Nat} (hsrc : p.source = .compute ts (some pts)) (hsol : p.writeSolution = true)
    {sigma : Option ℚ} (hs : sigma ∈ p.sigmas) (d0 d : Disk (ColFile K)) :
    ∃ f, dirPutAll d (dirRun p w d0).puts
        (pieceName colKind (dirStore p w ts.length p.outName) sigma none none) = some f ∧
      f.gamma.dims = [ts.length, pts.length, p.bands.length] := by
  have hrun : dirRun p w d0 = dirGo p w true (dirInit p ts) := by
    unfold dirRun
    rw [hsrc, hsol]
  rw [hrun]
  unfold dirGo dirFinish dirPutAll
  rw [if_pos rfl, List.foldl_append]
  have ht : (dirLoop p w (dirPoints p w).zipIdx (dirInit p ts : DirState K)).1.temps = ts :=
    (dirLoop_keeps p w (dirPoints p w).zipIdx (dirInit p ts)).2
  have hpl : dirPlaces p w = pts.length := by
    unfold dirPlaces dirPoints
    rw [hred, hsrc]
    rfl
  rw [ht]
  obtain ⟨j, hj⟩ := List.mem_iff_getElem?.1 hs
  have hz : (sigma, j) ∈ p.sigmas.zipIdx := List.mem_zipIdx_iff_getElem?.2 hj
  have hdims : ∀ x ∈ wholePuts (dirStore p w ts.length p.outName) (w.rowDims p.reducible)
      (dirPlaces p w) (dirStored p w) (dirLoop p w (dirPoints p w).zipIdx (dirInit p ts)).1,
      x.file.gamma.dims = [ts.length, pts.length, p.bands.length] := by
    intro x hx
    obtain ⟨sj, -, rfl⟩ := List.mem_map.1 hx
    show [ts.length, dirPlaces p w, p.bands.length] = _
    rw [hpl]
  generalize hn : pieceName colKind (dirStore p w ts.length p.outName) sigma none none = n
  have hmem : ∃ x ∈ wholePuts (dirStore p w ts.length p.outName) (w.rowDims p.reducible)
      (dirPlaces p w) (dirStored p w) (dirLoop p w (dirPoints p w).zipIdx (dirInit p ts)).1,
      x.name = n := ⟨_, List.mem_map.2 ⟨_, hz, rfl⟩, hn⟩
  generalize wholePuts (dirStore p w ts.length p.outName) (w.rowDims p.reducible)
      (dirPlaces p w) (dirStored p w) (dirLoop p w (dirPoints p w).zipIdx (dirInit p ts)).1 = l
      at hdims hmem
  obtain ⟨x, hx, hxn⟩ := hmem
  refine foldl_reach (P := fun d : Disk (ColFile K) => ∃ f, d n = some f ∧
    f.gamma.dims = [ts.length, pts.length, p.bands.length]) _ _ _ x hx ?_ ?_
  · intro d
    refine ⟨x.file, ?_, hdims x hx⟩
    show (if n = x.name then _ else _) = _
    rw [if_pos hxn.symm]
  · rintro d y hy ⟨f, hf, hf'⟩
    by_cases h : n = y.name
    · refine ⟨y.file, ?_, hdims y hy⟩
      show (if n = y.name then _ else _) = _
      rw [if_pos h]
    · refine ⟨f, ?_, hf'⟩
      show (if n = y.name then _ else _) = _
      rw [if_neg h]
      exact hf

omit [Zero K] in
theorem not_fits (a : NdArr K) {T N M B B' : Nat} (h : a.dims = [M, B']) (h1 : M ≠ 1) (h2 : M ≠ N) :
    a.assign [T, N, B] = none := by
  unfold NdArr.assign
  rw [if_neg]
  rw [h]
  simp only [List.reverse_cons, List.reverse_nil, List.nil_append, List.cons_append, fitsRev]
  simp [h1, h2]

theorem takeFull_raises (r : StoreArgs) (numSlot : Nat) (rowDims : List Nat) (j : Nat)
    (f : ColFile K) (st : ColRead K) {T M B : Nat} (h : f.gamma.dims = [T, M, B]) (h1 : M ≠ 1)
    (h2 : M ≠ numSlot) : takeFull r numSlot rowDims j f st = none := by
  unfold takeFull
  simp only
  rw [Option.bind_eq_none_iff]
  intro c _
  rw [Option.bind_eq_none_iff]
  intro cm _
  rw [Option.bind_eq_none_iff]
  intro g hg
  have hgd : g.dims = [M, B] := by
    unfold NdArr.first at hg
    rw [h] at hg
    cases T with
    | zero => simp at hg
    | succ T => simp only [Option.some.injEq] at hg; rw [← hg]
  unfold storeGamma
  rw [Option.map_eq_none_iff, Option.map_eq_none_iff]
  exact not_fits g hgd h1 h2

/-- **C158 fails (the file with everything of a part).** A run at several but not all grid points that
also asks for the file with everything writes its own arrays under the name of the file of the whole
mesh.  Every later run with `read_collision` takes this file first and raises, whatever files of grid
points are there. -/
theorem C158_part_solution (hs : s.source = .stored .all) (hred : s.reducible = false)
    (hne : s.sigmas ≠ []) {p : DirSettings} (hp1 : p.mesh = s.mesh) (hp2 : p.cutoff = s.cutoff)
    (hp3 : p.sigmas = s.sigmas) (hp4 : p.outName = s.inName) (hpr : p.reducible = false)
    {ts : List ℚ} {pts : List Nat} (hsrc : p.source = .compute ts (some pts))
    (hsol : p.writeSolution = true) (h1 : pts.length ≠ 1) (h2 : pts.length ≠ w.meshPoints.length)
    (d0 d : Disk (ColFile K)) :
    (dirRun s w (dirPutAll d (dirRun p w d0).puts)).outcome = .raised := by
  have hpts : dirPoints s w = w.meshPoints := by unfold dirPoints; rw [hs]; rfl
  have hpl : dirPlaces s w = w.meshPoints.length := by
    unfold dirPlaces; rw [hred, hpts]; rfl
  obtain ⟨sigma, rest, hsig⟩ : ∃ a l, s.sigmas = a :: l := by
    cases h : s.sigmas with
    | nil => exact absurd h hne
    | cons a l => exact ⟨a, l, rfl⟩
  obtain ⟨f, hf, hdims⟩ := whole_file p w hpr hsrc hsol (sigma := sigma)
    (by rw [hp3, hsig]; simp) d0 d
  rw [pieceName_congr colKind (r := dirStore s w 0 s.inName)
    (r' := dirStore p w ts.length p.outName) hp1 hp2 hp4] at hf
  have hread : dirRead s w .all (dirPutAll d (dirRun p w d0).puts) = none := by
    unfold dirRead
    rw [C143_all]
    unfold setCollisionFromFile
    have hz : (dirStore s w 0 s.inName).sigmas.zipIdx = (sigma, 0) :: rest.zipIdx 1 := by
      show s.sigmas.zipIdx = _
      rw [hsig]; rfl
    rw [hz, List.foldlM_cons]
    have : collectSigma (dirStore s w 0 s.inName) (dirPlaces s w)
        (fun i => dirPlace s w (w.meshPoints.getD i 0) i) (w.rowDims s.reducible)
        (dirPutAll d (dirRun p w d0).puts) 0 sigma
        { gamma := fun _ _ _ _ => 0, colmat := fun _ _ _ _ _ => 0 } = none := by
      unfold collectSigma
      have hf' : dirPutAll d (dirRun p w d0).puts
          (pieceName "collision".toList (dirStore s w 0 s.inName) sigma none none) = some f := hf
      rw [hf']
      show (takeFull _ _ _ _ _ _).map some = none
      rw [takeFull_raises _ _ _ _ f _ hdims h1 (by rw [hpl]; exact h2)]
      rfl
    exact congrArg (fun o => Option.bind o _) this
  rw [dirRun_stored hs, hread]
  rfl

/-- **C158 fails (isotope linewidths).** In a run at selected irreducible grid points the file of every
grid point has the isotope linewidths of the first one. -/
theorem C158_isotope_first (p : DirSettings) (w : DirWorld K) (hred : p.reducible = false)
    (hall : dirAllBands p = true) (hsol : p.writeSolution = false)
    {ts : List ℚ} {g0 : Nat} {pts : List Nat} (hsrc : p.source = .compute ts (some (g0 :: pts)))
    (d : Disk (ColFile K)) (x : DirPut K) (hx : x ∈ (dirRun p w d).puts) :
    ∃ sigma ∈ p.sigmas, ∃ gp ∈ g0 :: pts,
      x.name = pieceName colKind (dirStore p w ts.length p.outName) sigma (some gp) none ∧
      ∀ a, x.iso = some a → ∀ b < p.numBand, a.val [b] = w.iso sigma g0 b := by
  have hbr : p.bands = List.range p.numBand := by simpa [dirAllBands] using hall
  have hslot : ∀ gp i, dirSlot p w gp i = 0 := by
    intro gp i; unfold dirSlot; rw [hsrc]; rfl
  have hplace : ∀ gp i, dirPlace p w gp i = i := by
    intro gp i; unfold dirPlace; rw [hred]; rfl
  have key : ∀ (l : List (Nat × Nat)) (st : DirState K), st.temps = ts →
      (∀ g ∈ l, g.2 = 0 → g.1 = g0) → (∀ g ∈ l, g.1 ∈ g0 :: pts) →
      ((∀ a, st.iso = some a → ∀ j k, a j 0 k = w.iso (p.sigmas.getD j none) g0 (p.bands.getD k 0)) ∨
        ∃ l', l = (g0, 0) :: l') →
      ∀ x ∈ (dirLoop p w l st).2, ∃ sigma ∈ p.sigmas, ∃ gp ∈ g0 :: pts,
        x.name = pieceName colKind (dirStore p w ts.length p.outName) sigma (some gp) none ∧
        ∀ a, x.iso = some a → ∀ b < p.numBand, a.val [b] = w.iso sigma g0 b := by
    intro l
    induction l with
    | nil => intro st _ _ _ _ x hx; simp [dirLoop] at hx
    | cons g l ih =>
      obtain ⟨gp, i⟩ := g
      intro st ht hfst hin hI x hx
      have hI' : ∀ a, (dirPoint p w st gp i).iso = some a →
          ∀ j k, a j 0 k = w.iso (p.sigmas.getD j none) g0 (p.bands.getD k 0) := by
        intro a ha j k
        obtain ⟨a0, ha0, rfl⟩ := Option.map_eq_some_iff.1 ha
        rw [hplace]
        by_cases hi : i = 0
        · have hg : gp = g0 := hfst (gp, i) (by simp) hi
          subst hi
          subst hg
          show setAt (a0 j) 0 _ 0 k = _
          rw [setAt_same]
        · have h0 : (0 : Nat) ≠ i := fun h => hi h.symm
          show setAt (a0 j) i _ 0 k = _
          rw [setAt_other _ _ h0]
          rcases hI with hI | ⟨l', hl'⟩
          · exact hI a0 ha0 j k
          · simp only [List.cons.injEq, Prod.mk.injEq] at hl'
            exact absurd hl'.1.2 hi
      have hx' : x ∈ dirPieces p w (dirPoint p w st gp i) gp i ++
        (dirLoop p w l (dirPoint p w st gp i)).2 := hx
      rcases List.mem_append.1 hx' with hx' | hx'
      · unfold dirPieces at hx'
        split at hx'
        · unfold piecePuts at hx'
          rw [hall, if_pos rfl] at hx'
          obtain ⟨sj, hsj, rfl⟩ := List.mem_map.1 hx'
          have hsig : p.sigmas[sj.2]? = some sj.1 := zipIdx_getElem? hsj
          refine ⟨sj.1, List.mem_of_getElem? hsig, gp, hin (gp, i) (by simp), ?_, ?_⟩
          · show pieceName colKind (dirStore p w st.temps.length p.outName) _ _ _ = _
            rw [ht]
          · intro a ha b hb
            obtain ⟨a0, ha0, rfl⟩ := Option.map_eq_some_iff.1 ha
            show a0 sj.2 (dirSlot p w gp i) b = _
            rw [hslot, hI' a0 ha0, bands_getD hbr hb rfl, List.getD_eq_getElem?_getD, hsig,
              Option.getD_some]
        · simp at hx'
      · exact ih (dirPoint p w st gp i) ht (fun g hg => hfst g (by simp [hg]))
          (fun g hg => hin g (by simp [hg])) (.inl hI') x hx'
  have hrun : dirRun p w d = dirGo p w false (dirInit p ts) := by
    unfold dirRun
    rw [hsrc, hsol]
  have hpts : dirPoints p w = g0 :: pts := by unfold dirPoints; rw [hsrc]; rfl
  rw [hrun] at hx
  unfold dirGo dirFinish at hx
  rw [hpts] at hx
  simp only [Bool.false_eq_true, if_false, List.append_nil] at hx
  refine key _ _ rfl ?_ ?_ (.inr ⟨pts.zipIdx 1, rfl⟩) x hx
  · intro g hg h
    have hg' : g ∈ (g0 :: pts).zipIdx := hg
    have := zipIdx_getElem? hg'
    rw [h] at this
    simpa using this.symm
  · intro g hg
    have hg' : g ∈ (g0 :: pts).zipIdx := hg
    exact List.mem_of_getElem? (zipIdx_getElem? hg')

/-- **C158 fails (one temperature).** Asked to read one temperature from files of grid points, the run
does the calculation at all temperatures of the files. -/
theorem C158_one_temperature (hs : Reads { s with source := .stored .all } w ts)
    (hr : Separate (dirStore s w ts.length s.inName)) {k : Nat} (hk : k < ts.length)
    (hsrc : s.source = .stored (.list [k])) (hred : s.reducible = false)
    (l : List (DirSettings × Nat)) (hl : ∀ p ∈ l, DirPiece s ts p.1)
    (hdone : DirAllDone w s.numBand l)
    (hno : ∀ j < s.sigmas.length, ¬ Present colKind (dirStore s w ts.length s.inName)
      (dirRuns w l fun _ => none) j .all) (d' : Disk (ColFile K)) :
    ∃ x y, (dirRun s w (dirRuns w l fun _ => none)).outcome = .result x ∧
      (dirRun (computed s ts) w d').outcome = .result y ∧ x.state.temps = ts ∧ SameDirect s w x y := by
  have hpts : dirPoints s w = w.meshPoints := by unfold dirPoints; rw [hsrc]; rfl
  have hpl : dirPlaces s w = w.meshPoints.length := by
    unfold dirPlaces; rw [hred, hpts]; rfl
  have hst : dirStore { s with source := .stored .all } w ts.length s.inName =
      dirStore s w ts.length s.inName := by
    unfold dirStore dirPoints
    rw [hsrc]
    rfl
  have hplace : dirPlaces { s with source := .stored .all } w = dirPlaces s w := by
    unfold dirPlaces dirPoints
    rw [hsrc]
    rfl
  have hl' : ∀ p ∈ l, DirPiece { s with source := .stored .all } ts p.1 := fun p hp =>
    let h := hl p hp
    ⟨h.mesh, h.cutoff, h.sigmas, h.numBand, h.reducible, h.name, h.source, h.solution⟩
  have hr' : Separate (dirStore { s with source := .stored .all } w ts.length s.inName) := by
    rw [hst]; exact hr
  have hgood := dirRuns_good (d := fun _ => none) hs hr' l hl'
    (by intro j p n f _ hf; simp at hf)
  have hc := C158_done hs l hl' hdone (fun _ => none)
  obtain ⟨v, h1, h2, -⟩ := C143_pieces_one (reads_setting hs hr') hgood (k := k) hk hc
    (by
      show ∀ j < s.sigmas.length, ¬ Present colKind
        (dirStore { s with source := .stored .all } w ts.length s.inName) _ j .all
      rw [hst]; exact hno)
    (st := { gamma := fun _ _ _ _ => 0, colmat := fun _ _ _ _ _ => 0 }) rfl
  have hv : dirRead s w (.list [k]) (dirRuns w l fun _ => none) = some (some v) := by
    unfold dirRead
    rw [← hplace]
    rw [← h1]
    show setCollisionSelected _ _ _ _ _ _ _ = setCollisionSelected (.list [k])
      (dirStore { s with source := .stored .all } w ts.length s.inName) _ _ _ _ _
    rw [hst]
    rfl
  obtain ⟨x, y, a1, a2, a3, a4⟩ := read_recomputes hsrc hv h2
    (fun i hi hu => absurd hu (ir_visited hred (hpl ▸ hi))) d'
  exact ⟨x, y, a1, a2, a4.temps.trans a3, a4⟩

end

/-! ### Examples -/

/-- A crystal with two bands and three grid points. -/
def directWorld : DirWorld ℚ where
  meshPoints := [0, 3, 7]
  numMesh := 8
  gridIndex := id
  rowDims red := if red then [8, 2] else [3, 3, 2, 3]
  gamma sigma t gp b := t * (gp + 1) + b + sigma.getD 0
  colmat red _ t gp b row := t * gp + b + row.sum + (if red then 1 else 0)
  iso _ gp b := gp + b
  kappa red t g _ m := [t + (g.map List.sum).sum + (m.map fun r => (r.map List.sum).sum).sum +
    (if red then 1 else 0)]

/-- The run that reads. -/
def directReads : DirSettings where
  mesh := (11, 11, 11)
  sigmas := [none, some (1/10)]
  bands := [0, 1]
  numBand := 2
  isIsotope := true
  source := .stored .all

/-- A run at two grid points. -/
def directPart : DirSettings :=
  { directReads with source := .compute [100, 300] (some [0, 3]), writeCollision := true }

/-- A run at the third grid point with one band. -/
def directBand (b : Nat) : DirSettings :=
  { directReads with
    source := .compute [100, 300] (some [7]), writeCollision := true, bands := [b] }

theorem directReads_ok (red : Bool) :
    Reads { directReads with reducible := red } directWorld [100, 300] where
  source := rfl
  bands := rfl
  some_temp := by simp
  some_sigma := by simp [directReads]
  some_point := by simp [directWorld]
  some_band := by simp [directReads]
  mesh := ⟨by intro _; simp [directWorld], by intro _; simp [directWorld]⟩

theorem directReads_separate : Separate (dirStore directReads directWorld 2 none) where
  sigma_nonneg := by
    intro s hs v hv
    subst hv
    simp only [dirStore, directReads, List.mem_cons, reduceCtorEq, Option.some.injEq,
      List.not_mem_nil, or_false, false_or] at hs
    subst hs; norm_num
  cutoff_nonneg := by intro v hv; simp [dirStore, directReads] at hv
  sigma_apart := by
    intro j j' s s' hs hs' h
    simp only [dirStore, directReads] at hs hs'
    match j, j' with
    | 0, 0 => rfl
    | 1, 1 => rfl
    | 0, 1 =>
      simp at hs hs'; subst hs; subst hs'; simp [WithinMillionth] at h
    | 1, 0 =>
      simp at hs hs'; subst hs; subst hs'; simp [WithinMillionth] at h
    | 0, j' + 2 => simp at hs'
    | 1, j' + 2 => simp at hs'
    | j + 2, _ => simp at hs
  points := by decide

/-- A killed run, then runs that end, the first of them once more. -/
def directRuns : List (DirSettings × Nat) :=
  [(directPart, 1), (directBand 1, 2), (directPart, 4), (directBand 0, 2), (directPart, 3)]

theorem directRuns_pieces (p : DirSettings × Nat) (hp : p ∈ directRuns) :
    DirPiece directReads [100, 300] p.1 := by
  simp only [directRuns, List.mem_cons, List.not_mem_nil, or_false] at hp
  rcases hp with rfl | rfl | rfl | rfl | rfl <;>
    exact ⟨rfl, rfl, rfl, rfl, rfl, rfl, ⟨_, rfl⟩, by intro h; cases h⟩

theorem directRuns_done : DirAllDone directWorld directReads.numBand directRuns := by
  intro gp hgp
  simp only [directWorld, List.mem_cons, List.not_mem_nil, or_false] at hgp
  rcases hgp with rfl | rfl | rfl
  · left
    exact ⟨(directPart, 4), by simp [directRuns], by decide, rfl, by decide, fun d => le_of_eq rfl⟩
  · left
    exact ⟨(directPart, 4), by simp [directRuns], by decide, rfl, by decide, fun d => le_of_eq rfl⟩
  · right
    intro b hb
    have : b = 0 ∨ b = 1 := by
      have : b < 2 := hb
      omega
    rcases this with rfl | rfl
    · exact ⟨(directBand 0, 2), by simp [directRuns], by decide, rfl, by decide, by decide,
        fun d => le_of_eq rfl⟩
    · exact ⟨(directBand 1, 2), by simp [directRuns], by decide, rfl, by decide, by decide,
        fun d => le_of_eq rfl⟩

example : ∃ x y, (dirRun directReads directWorld (dirRuns directWorld directRuns fun _ => none)).outcome =
      .result x ∧
    (dirRun (computed directReads [100, 300]) directWorld fun _ => none).outcome = .result y ∧
    y.state.temps = [100, 300] ∧ SameDirect directReads directWorld x y :=
  C158_resume_partial (directReads_ok false) directReads_separate directRuns directRuns_pieces
    (C158_done (directReads_ok false) directRuns directRuns_pieces directRuns_done _) _

/-- A reducible collision matrix, from one run over the whole mesh. -/
example : ∃ x y, (dirRun { directReads with reducible := true } directWorld
      (dirRuns directWorld [({ directReads with
        reducible := true, source := .compute [100, 300] none, writeCollision := true,
        writeSolution := true }, 8)] fun _ => none)).outcome = .result x ∧
    (dirRun (computed { directReads with reducible := true } [100, 300]) directWorld
      fun _ => none).outcome = .result y ∧ y.state.temps = [100, 300] ∧
    SameDirect { directReads with reducible := true } directWorld x y := by
  have hp : ∀ p ∈ [(({ directReads with
        reducible := true, source := .compute [100, 300] none, writeCollision := true,
        writeSolution := true } : DirSettings), 8)],
      DirPiece { directReads with reducible := true } [100, 300] p.1 := by
    intro p hp
    simp only [List.mem_singleton] at hp
    subst hp
    exact ⟨rfl, rfl, rfl, rfl, rfl, rfl, ⟨_, rfl⟩, fun _ => ⟨rfl, by decide⟩⟩
  refine C158_resume_partial (directReads_ok true) directReads_separate _ hp
    (C158_done (directReads_ok true) _ hp ?_ _) _
  intro gp hgp
  left
  exact ⟨_, List.mem_singleton_self _, hgp, rfl, by decide, fun d => le_of_eq rfl⟩

/-- Files of some other calculation, all numbers zero. -/
def otherFile : ColFile ℚ where
  gamma := { dims := [2, 3, 2], val := fun _ => 0 }
  colmat := { dims := [2, 3, 2, 3, 3, 2, 3], val := fun _ => 0 }
  temps := [100, 300]

/-- Zeros are read, and the result is that of the run that computes. -/
example : ∃ x y, (dirRun directReads directWorld fun _ => some otherFile).outcome = .result x ∧
    (dirRun (computed directReads [100, 300]) directWorld fun _ => none).outcome = .result y ∧
    SameDirect directReads directWorld x y ∧ x.state.data.gamma 0 1 2 1 = 2401 := by
  obtain ⟨x, hx, ht⟩ : ∃ x, (dirRun directReads directWorld fun _ => some otherFile).outcome =
      .result x ∧ x.state.temps = [100, 300] := ⟨_, rfl, rfl⟩
  obtain ⟨y, hy, h⟩ := C158_not_used (s := directReads) (w := directWorld) rfl rfl _ hx fun _ => none
  rw [ht] at hy
  refine ⟨x, y, hx, hy, h, ?_⟩
  have hyt : y.state.temps = [100, 300] := h.temps.symm.trans ht
  rw [h.gamma 0 (by decide) 1 (by rw [hyt]; decide) 2 (by decide) 1 (by decide)]
  have : (dirRun (computed directReads [100, 300]) directWorld fun _ => none).outcome =
    .result y := hy
  cases this
  norm_num [dirLoop, dirPoints, computed, directWorld, directReads, DirSource.points, dirPoint, dirInit,
    setAt, dirSlot, dirPlace]

/-- Two of three grid points and the file with everything: all files of grid points are there, and
nothing can be read. -/
example : ColCovered (dirStore directReads directWorld 2 none)
      (dirRuns directWorld (directRuns ++ [({ directPart with writeSolution := true }, 6)])
        fun _ => none) ∧
    (dirRun directReads directWorld
      (dirRuns directWorld (directRuns ++ [({ directPart with writeSolution := true }, 6)])
        fun _ => none)).outcome = .raised := by
  have e : dirRuns directWorld (directRuns ++ [({ directPart with writeSolution := true }, 6)])
      (fun _ => none) = dirPutAll (dirRuns directWorld directRuns fun _ => none)
        (dirRun { directPart with writeSolution := true } directWorld fun _ => none).puts := by
    unfold dirRuns
    rw [List.foldl_append]
    rfl
  rw [e]
  refine ⟨?_, C158_part_solution (s := directReads) (w := directWorld)
    (p := { directPart with writeSolution := true }) (ts := [100, 300]) (pts := [0, 3]) rfl rfl
    (by decide) rfl rfl rfl rfl rfl rfl rfl (by decide) (by decide) _ _⟩
  have hc := C158_done (directReads_ok false) directRuns directRuns_pieces directRuns_done
    (fun _ => none)
  have hmono : ∀ j q, Present colKind (dirStore directReads directWorld 2 none)
      (dirRuns directWorld directRuns fun _ => none) j q →
      Present colKind (dirStore directReads directWorld 2 none)
        (dirPutAll (dirRuns directWorld directRuns fun _ => none)
          (dirRun { directPart with writeSolution := true } directWorld fun _ => none).puts) j q :=
    fun j q ⟨n, h1, h2⟩ => ⟨n, h1, dirPutAll_isSome h2 _⟩
  intro j hj
  rcases hc j hj with h | h
  · exact .inl (hmono j _ h)
  · right
    intro i hi
    rcases h i hi with h | h
    · exact .inl (hmono j _ h)
    · exact .inr fun b hb => hmono j _ (h b hb)

/-- The file of grid point 3 has the isotope linewidths of grid point 0. -/
example : ∃ x ∈ (dirRun directPart directWorld fun _ => none).puts,
    x.name = pieceName colKind (dirStore directPart directWorld 2 none) none (some 3) none ∧
    ∃ a, x.iso = some a ∧ a.val [1] = directWorld.iso none 0 1 ∧
      directWorld.iso none 0 1 ≠ directWorld.iso none 3 1 := by
  have hx : ((dirRun directPart directWorld fun _ => none).puts)[2]? ≠ none := by
    intro h
    have : ((dirRun directPart directWorld fun _ => none).puts).length = 4 := rfl
    rw [List.getElem?_eq_none_iff] at h
    omega
  obtain ⟨x, hx⟩ := Option.ne_none_iff_exists'.1 hx
  refine ⟨x, List.mem_of_getElem? hx, ?_⟩
  cases hx
  refine ⟨rfl, _, rfl, ?_, by norm_num [directWorld]⟩
  norm_num [directWorld, directPart, directReads, dirPoint, dirInit, setAt, dirPlace, dirSlot,
    DirSource.points]

/-- Reading the first temperature only. -/
example : ∃ x y, (dirRun { directReads with source := .stored (.list [0]) } directWorld
      (dirRuns directWorld directRuns fun _ => none)).outcome = .result x ∧
    (dirRun (computed { directReads with source := .stored (.list [0]) } [100, 300]) directWorld
      fun _ => none).outcome = .result y ∧ x.state.temps = [100, 300] ∧
    SameDirect { directReads with source := .stored (.list [0]) } directWorld x y := by
  refine C158_one_temperature (s := { directReads with source := .stored (.list [0]) })
    (directReads_ok false) directReads_separate (k := 0) (by decide) rfl rfl directRuns
    (fun p hp => let h := directRuns_pieces p hp
      ⟨h.mesh, h.cutoff, h.sigmas, h.numBand, h.reducible, h.name, h.source, h.solution⟩)
    directRuns_done ?_ _
  have hno : ∀ sigma ∈ [none, some (1/10 : ℚ)], dirRuns directWorld directRuns (fun _ => none)
      (pieceName colKind (dirStore directReads directWorld 2 none) sigma none none) = none := by
    intro sigma hs
    rcases List.mem_cons.1 hs with rfl | hs
    · rw [← Option.isNone_iff_eq_none]
      decide +kernel
    · rw [List.mem_singleton.1 hs, ← Option.isNone_iff_eq_none]
      decide +kernel
  rintro j hj ⟨n, hn, hsome⟩
  unfold keyName at hn
  obtain ⟨sigma, h1, h2⟩ := Option.bind_eq_some_iff.1 hn
  simp only [Option.some.injEq] at h2
  subst h2
  have h3 := hno sigma (List.mem_of_getElem? h1)
  have h4 : (dirRuns directWorld directRuns (fun _ => none)
    (pieceName colKind (dirStore directReads directWorld 2 none) sigma none none)).isSome := hsome
  rw [h3] at h4
  simp at h4

/-- The file with everything is there: `C158_last_sigma`. -/
example : dirRun { directReads with writeSolution := true } directWorld (fun _ => some otherFile) =
    dirRun { directReads with writeSolution := false } directWorld (fun _ => some otherFile) :=
  C158_last_sigma (s := { directReads with writeSolution := true }) rfl _
    directReads.sigmas.dropLast rfl _ rfl

end Phono3py.Props
