import Verif.Model.StoredSelect
import Verif.Props.StoredCollision

/-!
# C143: collision data read at selected temperatures
-/

namespace Phono3py.Props

open Phono3py Phono3py.Spec

variable {K : Type} {r : StoreArgs} {temps : List ℚ} {rowDims : List Nat} {numSlot : Nat}
  {slot : Nat → Nat} {w : Collisions K} {d : Disk (ColFile K)} {l : List Nat} {k : Nat}

/-! ## Specification -/

/-- Indices of temperatures, increasing. -/
def ValidIndices (l : List Nat) (numT : Nat) : Prop := l.Pairwise (· < ·) ∧ ∀ k ∈ l, k < numT

/-- The data at the selected temperatures only. -/
def atIndices (w : Collisions K) (l : List Nat) : Collisions K where
  gamma j t i b := w.gamma j (l.getD t 0) i b
  colmat j t i b row := w.colmat j (l.getD t 0) i b row

/-! ## Selected files -/

/-- An array at selected temperatures. -/
def selArr (l : List Nat) (a : NdArr K) : NdArr K where
  dims := l.length :: a.dims.tail
  val idx := a.val (l.getD (idx.getD 0 0) 0 :: idx.drop 1)

/-- A file at selected temperatures. -/
def selFile (l : List Nat) (f : ColFile K) : ColFile K where
  gamma := selArr l f.gamma
  colmat := selArr l f.colmat
  temps := l.map (fun k => f.temps.getD k 0)

theorem select_arr {a : NdArr K} {n : Nat} {ds : List Nat} (ha : a.dims = n :: ds)
    (hl : ValidIndices l n) : a.select l = some (selArr l a) := by
  unfold NdArr.select
  rw [ha]
  simp only
  rw [if_pos (show _ ∧ _ from hl)]
  unfold selArr
  rw [ha]
  rfl

/-- The piece with the position in the arrays instead of the position in the list. -/
def slotted (slot : Nat → Nat) (p : Piece) : Piece :=
  match p with
  | .all => Piece.all
  | .point i => .point (slot i)
  | .band i b => .band (slot i) b

theorem good_iff {j : Nat} {p : Piece} {f : ColFile K} :
    ColGood r temps rowDims numSlot slot w j p f ↔
      f.temps = temps ∧ Carries r.numT numSlot r.numBand (slotted slot p) (w.gamma j) f.gamma ∧
      f.colmat.dims = (slotted slot p).dims r.numT numSlot r.numBand ++ rowDims ∧
      ∀ t i b idx row, t < r.numT → i < numSlot → b < r.numBand →
        (slotted slot p).index t i b = some idx →
        List.Forall₂ (· < ·) row rowDims → f.colmat.val (idx ++ row) = w.colmat j t i b row :=
  Iff.rfl

theorem select_file {j : Nat} {p : Piece} {f : ColFile K} (ht : temps.length = r.numT)
    (hl : ValidIndices l r.numT) (hf : ColGood r temps rowDims numSlot slot w j p f) :
    f.select (.list l) = some (selFile l f) := by
  obtain ⟨h1, h2, h3, -⟩ := good_iff.1 hf
  obtain ⟨ds, hds⟩ := dims_cons numSlot r.numBand (slotted slot p)
  have hg := select_arr (h2.1.trans (hds r.numT)) hl
  have hc := select_arr (a := f.colmat) (n := r.numT) (ds := ds ++ rowDims)
    (by rw [h3, hds]; rfl) hl
  unfold ColFile.select
  simp only [hg, hc, Option.bind_some]
  rw [if_pos]
  · rfl
  · intro k hk
    rw [h1, ht]
    exact hl.2 k hk

theorem getD_lt (hl : ValidIndices l r.numT) {t : Nat} (ht : t < l.length) :
    l.getD t 0 < r.numT := by
  have : l.getD t 0 = l[t] := by simp [ht]
  rw [this]
  exact hl.2 _ (List.getElem_mem ht)

theorem selFile_good {j : Nat} {p : Piece} {f : ColFile K}
    (hl : ValidIndices l r.numT) (hf : ColGood r temps rowDims numSlot slot w j p f) :
    ColGood { r with numT := l.length } (l.map (fun k => temps.getD k 0)) rowDims numSlot slot
      (atIndices w l) j p (selFile l f) := by
  obtain ⟨h1, h2, h3, h4⟩ := good_iff.1 hf
  obtain ⟨ds, hds⟩ := dims_cons numSlot r.numBand (slotted slot p)
  refine good_iff.2 ⟨by rw [← h1]; rfl, ⟨?_, ?_⟩, ?_, ?_⟩
  · show l.length :: f.gamma.dims.tail = _
    rw [h2.1, hds, hds]; rfl
  · intro t i b idx ht hi hb hidx
    obtain ⟨rest, rfl, hshift⟩ := index_shift hidx
    exact h2.2 _ i b _ (getD_lt hl ht) hi hb (hshift _)
  · show l.length :: f.colmat.dims.tail = _
    rw [h3, hds, hds]; rfl
  · intro t i b idx row ht hi hb hidx hrow
    obtain ⟨rest, rfl, hshift⟩ := index_shift hidx
    exact h4 _ i b _ row (getD_lt hl ht) hi hb (hshift _) hrow

theorem keyName_numT (n j : Nat) (p : Piece) :
    keyName colKind { r with numT := n } j p = keyName colKind r j p := rfl

theorem readCollision_good {j : Nat} {p : Piece} {n : List Char} {f : ColFile K}
    (ht : temps.length = r.numT) (hl : ValidIndices l r.numT)
    (hf : ColGood r temps rowDims numSlot slot w j p f) (hn : d n = some f) :
    readCollision (.list l) d n = some (some (selFile l f)) := by
  unfold readCollision
  rw [hn]
  simp only [select_file ht hl hf, Option.map_some]

/-! ## One file for everything -/

theorem foldlM_congr' {α β : Type} {f g : β → α → Option β} (P : β → Prop) (l : List α)
    (hfg : ∀ a ∈ l, ∀ b, P b → f b a = g b a)
    (hP : ∀ a ∈ l, ∀ b b', P b → g b a = some b' → P b') (b : β) (hb : P b) :
    l.foldlM f b = l.foldlM g b := by
  induction l generalizing b with
  | nil => rfl
  | cons a l ih =>
    rw [List.foldlM_cons, List.foldlM_cons, hfg a (by simp) b hb]
    cases h : g b a with
    | none => rfl
    | some b' =>
      exact ih (fun a ha => hfg a (by simp [ha])) (fun a ha => hP a (by simp [ha])) b'
        (hP a (by simp) b b' hb h)

theorem selected_full [Zero K] (ht : temps.length = r.numT)
    (hd : Holds colKind r (ColGood r temps rowDims numSlot slot w) d)
    (hl : ValidIndices l r.numT) (hall : ∀ j < r.sigmas.length, Present colKind r d j .all)
    (st : ColRead K) :
    setCollisionSelected (.list l) r numSlot slot rowDims d st =
      setCollisionFromFile { r with numT := l.length } numSlot slot rowDims
        (fun n => (d n).map (selFile l)) st := by
  unfold setCollisionSelected setCollisionFromFile
  refine foldlM_congr' (fun _ => True) _ ?_ (fun _ _ _ _ _ _ => trivial) _ trivial
  intro s hs o _
  cases o with
  | none => rfl
  | some st =>
    have hsig := zipIdx_getElem? hs
    obtain ⟨n, hn, hsome⟩ := hall s.2 (List.getElem?_eq_some_iff.1 hsig).1
    obtain ⟨f, hf⟩ := Option.isSome_iff_exists.1 hsome
    have hn' : n = pieceName "collision".toList r s.1 none none := by
      unfold keyName at hn
      rw [hsig] at hn
      exact (Option.some.inj hn).symm
    have hgood := hd s.2 .all n f hn hf
    subst hn'
    show collectSigmaSelected _ _ _ _ _ _ _ _ _ = collectSigma _ _ _ _ _ _ _ _
    unfold collectSigmaSelected collectSigma
    rw [readCollision_good ht hl hgood hf]
    have : (fun n => (d n).map (selFile l)) (pieceName "collision".toList
        { r with numT := l.length } s.1 none none) = some (selFile l f) := by
      show (d (pieceName "collision".toList r s.1 none none)).map (selFile l) = _
      rw [hf]; rfl
    rw [this]
    rfl

/-- **C143**. From files for everything, the collision matrices at the selected temperatures are
restored; the linewidths at all of them are those at the first one. -/
theorem C143_full [Zero K] (hx : ColSetting r temps numSlot slot)
    (hd : Holds colKind r (ColGood r temps rowDims numSlot slot w) d)
    (hl : ValidIndices l r.numT) (hne : l ≠ [])
    (hall : ∀ j < r.sigmas.length, Present colKind r d j .all)
    {st : ColRead K} (hst : st.temps = none) :
    ∃ out, setCollisionSelected (.list l) r numSlot slot rowDims d st = some (some out) ∧
      out.temps = some (l.map (fun k => temps.getD k 0)) ∧
      ∀ j < r.sigmas.length, ∀ (t k : Nat), l[t]? = some k →
        ∀ i < r.gridPoints.length, ∀ b < r.numBand,
        (∀ row, List.Forall₂ (· < ·) row rowDims →
          out.colmat j t (slot i) b row = w.colmat j k (slot i) b row) ∧
        out.gamma j t (slot i) b = w.gamma j (l.head hne) (slot i) b := by
  have hlen : 0 < l.length := List.length_pos_iff.2 hne
  have hx' : ColSetting { r with numT := l.length } (l.map (fun k => temps.getD k 0)) numSlot slot :=
    { temps := by simp
      some_temp := hlen
      some_sigma := hx.some_sigma
      some_point := hx.some_point
      some_band := hx.some_band
      slot_inj := hx.slot_inj
      slot_lt := hx.slot_lt }
  have hd' : Holds colKind { r with numT := l.length }
      (ColGood { r with numT := l.length } (l.map (fun k => temps.getD k 0)) rowDims numSlot slot
        (atIndices w l)) (fun n => (d n).map (selFile l)) := by
    intro j p n f hn hf
    obtain ⟨f', hf', rfl⟩ := Option.map_eq_some_iff.1 hf
    exact selFile_good hl (hd j p n f' hn hf')
  have hp : ∀ j < r.sigmas.length, Present colKind { r with numT := l.length }
      (fun n => (d n).map (selFile l)) j .all := by
    intro j hj
    obtain ⟨n, hn, hs⟩ := hall j hj
    exact ⟨n, hn, by simpa using hs⟩
  obtain ⟨out, h1, h2, h3⟩ := C55_read hx' hd' (fun j hj => .inl (hp j hj)) hst
  refine ⟨out, by rw [selected_full hx.temps hd hl hall]; exact h1, h2, ?_⟩
  intro j hj t k htk i hi b hb
  have htl := (List.getElem?_eq_some_iff.1 htk).1
  obtain ⟨h4, -, h5⟩ := h3 j hj t htl i hi b hb
  have hk : l.getD t 0 = k := by simp [htk]
  have h0 : l.getD 0 0 = l.head hne := by
    cases l with
    | nil => exact absurd rfl hne
    | cons a l => rfl
  refine ⟨fun row hrow => ?_, ?_⟩
  · rw [h4 row hrow]
    show w.colmat j (l.getD t 0) _ _ _ = _
    rw [hk]
  · rw [h5 (.inl (hp j hj))]
    show w.gamma j (l.getD 0 0) _ _ = _
    rw [h0]

/-! ## Files of grid points and bands -/

theorem fitsRev_snoc (x y : List Nat) (h : x.length = y.length) (s n : Nat) :
    fitsRev (x ++ [s]) (y ++ [n]) = (fitsRev x y && (s == n || s == 1)) := by
  induction x generalizing y with
  | nil =>
    cases y with
    | nil => simp [fitsRev]
    | cons _ _ => simp at h
  | cons a x ih =>
    cases y with
    | nil => simp at h
    | cons c y =>
      simp only [List.cons_append, fitsRev]
      rw [ih y (by simpa using h), Bool.and_assoc]

theorem indexRev_snoc (x idx : List Nat) : ∃ R, ∀ s, ∃ c, indexRev (x ++ [s]) idx = R ++ [c] ∧
    (s = 1 → c = 0) := by
  induction x generalizing idx with
  | nil =>
    refine ⟨[], fun s => ?_⟩
    cases idx with
    | nil => exact ⟨0, rfl, fun _ => rfl⟩
    | cons i idx => exact ⟨if s = 1 then 0 else i, rfl, fun h => if_pos h⟩
  | cons a x ih =>
    cases idx with
    | nil =>
      obtain ⟨R, hR⟩ := ih []
      refine ⟨0 :: R, fun s => ?_⟩
      obtain ⟨c, h1, h2⟩ := hR s
      exact ⟨c, by simp only [List.cons_append, indexRev, h1], h2⟩
    | cons i idx =>
      obtain ⟨R, hR⟩ := ih idx
      refine ⟨(if a = 1 then 0 else i) :: R, fun s => ?_⟩
      obtain ⟨c, h1, h2⟩ := hR s
      exact ⟨c, by simp only [List.cons_append, indexRev, h1], h2⟩

/-- An array with the values at one temperature everywhere. -/
def constArr (k : Nat) (a : NdArr K) : NdArr K where
  dims := a.dims
  val idx := a.val (k :: idx.drop 1)

/-- A file with the values at one temperature everywhere. -/
def constFile (k : Nat) (f : ColFile K) : ColFile K where
  gamma := constArr k f.gamma
  colmat := constArr k f.colmat
  temps := f.temps

/-- numpy repeats the values at one temperature for all temperatures. -/
theorem assign_one (a : NdArr K) {n : Nat} {ds : List Nat} (ha : a.dims = n :: ds) :
    (selArr [k] a).assign (n :: ds) = (constArr k a).assign (n :: ds) := by
  have e1 : (selArr [k] a).dims.reverse = ds.reverse ++ [1] := by simp [selArr, ha]
  have e2 : (constArr k a).dims.reverse = ds.reverse ++ [n] := by simp [constArr, ha]
  unfold NdArr.assign
  rw [e1, e2, List.reverse_cons, fitsRev_snoc _ _ rfl, fitsRev_snoc _ _ rfl]
  have h0 : fitsRev ds.reverse ds.reverse = true := by
    have := fitsRev_append ds.reverse []
    rwa [List.append_nil] at this
  rw [h0]
  simp only [beq_self_eq_true, Bool.or_true, Bool.true_or, Bool.and_self, if_true]
  congr 1
  funext idx
  obtain ⟨R, hR⟩ := indexRev_snoc ds.reverse idx.reverse
  obtain ⟨c1, h1, h1'⟩ := hR 1
  obtain ⟨c2, h2, -⟩ := hR n
  rw [h1, h2, h1' rfl]
  simp [selArr, constArr]

theorem take_point_one {j i : Nat} {f : ColFile K} {st : ColRead K}
    (hst : (st.temps.getD []).length = r.numT)
    (hf : ColGood r temps rowDims numSlot slot w j (.point i) f) :
    takePoint r numSlot rowDims j (slot i) (selFile [k] f) st =
      takePoint r numSlot rowDims j (slot i) (constFile k f) st := by
  obtain ⟨-, h2, h3, -⟩ := good_iff.1 hf
  have hg : storeGamma r.numT numSlot r.numBand j (.point (slot i)) (selFile [k] f).gamma st.gamma =
      storeGamma r.numT numSlot r.numBand j (.point (slot i)) (constFile k f).gamma st.gamma := by
    unfold storeGamma
    exact congrArg (Option.map _) (assign_one f.gamma h2.1)
  have hc : ∀ a, storeColmat r.numT numSlot r.numBand j rowDims (.point (slot i))
        (selFile [k] f).colmat a =
      storeColmat r.numT numSlot r.numBand j rowDims (.point (slot i)) (constFile k f).colmat a := by
    intro a
    unfold storeColmat
    exact congrArg (Option.map _) (assign_one f.colmat h3)
  have hfirst : ∀ a : NdArr K, (leadingAxis a).first = some a := by
    intro a; unfold NdArr.first leadingAxis; simp
  unfold takePoint
  simp only [hst, hg, hfirst, hc, Option.bind_some]

theorem take_band_one {j i b : Nat} {f : ColFile K} {st : ColRead K} (hT : 0 < r.numT)
    (hst : (st.temps.getD []).length = r.numT)
    (hf : ColGood r temps rowDims numSlot slot w j (.band i b) f) :
    takeBand r numSlot rowDims j (slot i) b (selFile [k] f) st =
      takeBand r numSlot rowDims j (slot i) b (constFile k f) st := by
  obtain ⟨-, h2, h3, -⟩ := good_iff.1 hf
  have hg : (selFile [k] f).gamma.first = (constFile k f).gamma.first := by
    have hdims : f.gamma.dims = r.numT :: [] := h2.1
    obtain ⟨n, hn⟩ : ∃ n, r.numT = n + 1 := ⟨r.numT - 1, by omega⟩
    have e1 : (selFile [k] f).gamma.first =
        some { dims := [], val := fun idx => f.gamma.val (k :: idx) } := by
      show (selArr [k] f.gamma).first = _
      unfold NdArr.first selArr
      rw [hdims]
      rfl
    have e2 : (constFile k f).gamma.first =
        some { dims := [], val := fun idx => f.gamma.val (k :: idx) } := by
      show (constArr k f.gamma).first = _
      unfold NdArr.first constArr
      rw [hdims, hn]
      rfl
    rw [e1, e2]
  have hc : ∀ a, storeColmat r.numT numSlot r.numBand j rowDims (.band (slot i) b)
        (selFile [k] f).colmat a =
      storeColmat r.numT numSlot r.numBand j rowDims (.band (slot i) b) (constFile k f).colmat a := by
    intro a
    unfold storeColmat
    exact congrArg (Option.map _) (assign_one f.colmat h3)
  have hfirst : ∀ a : NdArr K, (leadingAxis a).first = some a := by
    intro a; unfold NdArr.first leadingAxis; simp
  unfold takeBand
  simp only [hst, hg, hfirst, hc, Option.bind_some]

theorem takePoint_temps {j i : Nat} {f : ColFile K} {st st' : ColRead K}
    (h : takePoint r numSlot rowDims j i f st = some st') : st'.temps = st.temps := by
  unfold takePoint at h
  obtain ⟨_, -, h⟩ := Option.bind_eq_some_iff.1 h
  obtain ⟨_, -, h⟩ := Option.bind_eq_some_iff.1 h
  obtain ⟨_, -, rfl⟩ := Option.map_eq_some_iff.1 h
  rfl

theorem takeBand_temps {j i b : Nat} {f : ColFile K} {st st' : ColRead K}
    (h : takeBand r numSlot rowDims j i b f st = some st') : st'.temps = st.temps := by
  unfold takeBand at h
  obtain ⟨_, -, h⟩ := Option.bind_eq_some_iff.1 h
  obtain ⟨_, -, h⟩ := Option.bind_eq_some_iff.1 h
  obtain ⟨_, -, h⟩ := Option.bind_eq_some_iff.1 h
  obtain ⟨_, -, rfl⟩ := Option.map_eq_some_iff.1 h
  rfl

theorem foldlM_keeps {α β : Type} {f : β → α → Option β} (P : β → Prop) (l : List α)
    (hP : ∀ a ∈ l, ∀ b b', P b → f b a = some b' → P b') {b b' : β} (hb : P b)
    (h : l.foldlM f b = some b') : P b' := by
  induction l generalizing b with
  | nil => simp only [List.foldlM_nil] at h; exact (Option.some.inj h) ▸ hb
  | cons a l ih =>
    rw [List.foldlM_cons] at h
    obtain ⟨c, hc, h⟩ := Option.bind_eq_some_iff.1 h
    exact ih (fun a ha => hP a (by simp [ha])) (hP a (by simp) b c hb hc) h

theorem readCollision_none {n : List Char} (h : d n = none) (ix : ColIndices) :
    readCollision ix d n = some none := by
  unfold readCollision; rw [h]

theorem points_one (hT : 0 < r.numT) (ht : temps.length = r.numT)
    (hd : Holds colKind r (ColGood r temps rowDims numSlot slot w) d) (hk : k < r.numT) {j : Nat}
    {s : Option ℚ} (hs : r.sigmas[j]? = some s) {st : ColRead K}
    (hst : (st.temps.getD []).length = r.numT) :
    collectPointsSelected (.list [k]) r numSlot slot rowDims d j s st =
      collectPoints r numSlot slot rowDims (fun n => (d n).map (constFile k)) j s st := by
  have hl : ValidIndices [k] r.numT := ⟨by simp, by simpa using hk⟩
  unfold collectPointsSelected collectPoints
  have hbandkeep : ∀ (g : Nat × Nat), ∀ b ∈ List.range r.numBand, ∀ st st' : ColRead K,
      (st.temps.getD []).length = r.numT →
      (match (fun n => (d n).map (constFile k)) (pieceName "collision".toList r s (some g.1) (some b))
        with
        | some f => takeBand r numSlot rowDims j (slot g.2) b f st
        | none => none) = some st' → (st'.temps.getD []).length = r.numT := by
    intro g b _ st st' h1 h2
    split at h2
    · rw [takeBand_temps h2]; exact h1
    · simp at h2
  refine foldlM_congr' (fun st => (st.temps.getD []).length = r.numT) _ ?_ ?_ _ hst
  · intro g hg st hst
    have hgp := zipIdx_getElem? hg
    have hn : keyName colKind r j (.point g.2) =
        some (pieceName "collision".toList r s (some g.1) none) := by
      unfold keyName; rw [hs]; simp only [Option.bind_some]; rw [hgp]; rfl
    cases hf : d (pieceName "collision".toList r s (some g.1) none) with
    | some f =>
      have hgood := hd _ _ _ f hn hf
      simp only [readCollision_good ht hl hgood hf, hf, Option.map_some]
      exact take_point_one hst hgood
    | none =>
      simp only [readCollision_none hf, hf, Option.map_none]
      unfold collectBandsSelected
      refine foldlM_congr' (fun st => (st.temps.getD []).length = r.numT) _ ?_ (hbandkeep g) _ hst
      intro b _ st hst
      have hnb : keyName colKind r j (.band g.2 b) =
          some (pieceName "collision".toList r s (some g.1) (some b)) := by
        unfold keyName; rw [hs]; simp only [Option.bind_some]; rw [hgp]; rfl
      cases hfb : d (pieceName "collision".toList r s (some g.1) (some b)) with
      | some f =>
        have hgood := hd _ _ _ f hnb hfb
        simp only [readCollision_good ht hl hgood hfb, Option.map_some]
        exact take_band_one hT hst hgood
      | none => simp only [readCollision_none hfb, Option.map_none]
  · intro g _ st st' h1 h2
    split at h2
    · rw [takePoint_temps h2]; exact h1
    · exact foldlM_keeps (fun st => (st.temps.getD []).length = r.numT) _ (hbandkeep g) h1 h2

theorem firstTemperatures_const {s : Option ℚ} :
    firstTemperatures r (fun n => (d n).map (constFile k)) s = firstTemperatures r d s := by
  unfold firstTemperatures
  congr 1
  funext gp
  cases h : d (pieceName "collision".toList r s (some gp) none) with
  | some f => simp only [h, Option.map_some]; rfl
  | none =>
    simp only [h, Option.map_none]
    cases d (pieceName "collision".toList r s (some gp) (some 0)) <;> rfl

theorem firstTemperatures_good {j : Nat} {s : Option ℚ} {ts : List ℚ}
    (hs : r.sigmas[j]? = some s)
    (hd : Holds colKind r (ColGood r temps rowDims numSlot slot w) d)
    (h : firstTemperatures r d s = some ts) : ts = temps := by
  unfold firstTemperatures at h
  obtain ⟨gp, hgp, h⟩ := Option.bind_eq_some_iff.1 h
  have hg0 : r.gridPoints[0]? = some gp := by rw [← List.head?_eq_getElem?]; exact hgp
  split at h
  · rename_i f hf
    have hn : keyName colKind r j (.point 0) =
        some (pieceName "collision".toList r s (some gp) none) := by
      unfold keyName; rw [hs]; simp only [Option.bind_some]; rw [hg0]; rfl
    rw [← Option.some.inj h]
    exact (hd _ _ _ f hn hf).1
  · obtain ⟨f, hf, rfl⟩ := Option.map_eq_some_iff.1 h
    have hn : keyName colKind r j (.band 0 0) =
        some (pieceName "collision".toList r s (some gp) (some 0)) := by
      unfold keyName; rw [hs]; simp only [Option.bind_some]; rw [hg0]; rfl
    exact (hd _ _ _ f hn hf).1

theorem not_present_none {j : Nat} {s : Option ℚ} (hs : r.sigmas[j]? = some s)
    (h : ¬ Present colKind r d j .all) : d (pieceName "collision".toList r s none none) = none := by
  by_contra hne
  exact h ⟨_, by unfold keyName; rw [hs]; rfl, Option.isSome_iff_ne_none.2 hne⟩

theorem selected_one [Zero K] (hT : 0 < r.numT) (ht : temps.length = r.numT)
    (hd : Holds colKind r (ColGood r temps rowDims numSlot slot w) d) (hk : k < r.numT)
    (hall : ∀ j < r.sigmas.length, ¬ Present colKind r d j .all)
    {st : ColRead K} (hst : st.temps = none) :
    setCollisionSelected (.list [k]) r numSlot slot rowDims d st =
      setCollisionFromFile r numSlot slot rowDims (fun n => (d n).map (constFile k)) st := by
  unfold setCollisionSelected setCollisionFromFile
  have halloc : ∀ {st : ColRead K}, (st.temps = none ∨ st.temps = some temps) →
      (allocateOnce temps st).temps = some temps := by
    rintro st (h | h)
    · unfold allocateOnce; rw [h]
    · unfold allocateOnce; rw [h]; exact h
  refine foldlM_congr' (fun o => ∀ st : ColRead K, o = some st →
    st.temps = none ∨ st.temps = some temps) _ ?_ ?_ _ (by rintro _ ⟨⟩; exact .inl hst)
  · intro s hs o ho
    cases o with
    | none => rfl
    | some st =>
      have hsig := zipIdx_getElem? hs
      have hnone := not_present_none hsig (hall s.2 (List.getElem?_eq_some_iff.1 hsig).1)
      show collectSigmaSelected _ _ _ _ _ _ _ _ _ = collectSigma _ _ _ _ _ _ _ _
      unfold collectSigmaSelected collectSigma
      rw [readCollision_none hnone]
      have h2 : (fun n => (d n).map (constFile k)) (pieceName "collision".toList r s.1 none none) =
          none := by
        show (d (pieceName "collision".toList r s.1 none none)).map _ = none
        rw [hnone]; rfl
      rw [h2, firstTemperatures_const]
      cases hts : firstTemperatures r d s.1 with
      | none => rfl
      | some ts =>
        have := firstTemperatures_good hsig hd hts
        subst this
        show (collectPointsSelected _ _ _ _ _ _ _ _ _).map some = (collectPoints _ _ _ _ _ _ _ _).map some
        rw [points_one hT ht hd hk hsig (by rw [halloc (ho st rfl)]; exact ht)]
  · intro s hs o o' ho h st' hst'
    subst hst'
    cases o with
    | none => simp at h
    | some st =>
      have hsig := zipIdx_getElem? hs
      have hnone := not_present_none hsig (hall s.2 (List.getElem?_eq_some_iff.1 hsig).1)
      change collectSigma _ _ _ _ _ _ _ _ = _ at h
      unfold collectSigma at h
      have h2 : (fun n => (d n).map (constFile k)) (pieceName "collision".toList r s.1 none none) =
          none := by
        show (d (pieceName "collision".toList r s.1 none none)).map _ = none
        rw [hnone]; rfl
      rw [h2, firstTemperatures_const] at h
      cases hts : firstTemperatures r d s.1 with
      | none => rw [hts] at h; simp at h
      | some ts =>
        rw [hts] at h
        have := firstTemperatures_good hsig hd hts
        subst this
        obtain ⟨st2, h3, h4⟩ := Option.map_eq_some_iff.1 h
        obtain rfl := Option.some.inj h4
        right
        unfold collectPoints at h3
        refine foldlM_keeps (fun st : ColRead K => st.temps = some ts) _ ?_ (halloc (ho st rfl)) h3
        intro g _ st st' h1 h2
        split at h2
        · rw [takePoint_temps h2]; exact h1
        · refine foldlM_keeps (fun st : ColRead K => st.temps = some ts) _ ?_ h1 h2
          intro b _ st st' h1 h2
          split at h2
          · rw [takeBand_temps h2]; exact h1
          · simp at h2

/-- The data at one temperature, at all temperatures. -/
def constCollisions (w : Collisions K) (k : Nat) : Collisions K where
  gamma j _ i b := w.gamma j k i b
  colmat j _ i b row := w.colmat j k i b row

theorem constFile_good {j : Nat} {p : Piece} {f : ColFile K} (hk : k < r.numT)
    (hf : ColGood r temps rowDims numSlot slot w j p f) :
    ColGood r temps rowDims numSlot slot (constCollisions w k) j p (constFile k f) := by
  obtain ⟨h1, h2, h3, h4⟩ := good_iff.1 hf
  refine good_iff.2 ⟨h1, ⟨h2.1, ?_⟩, h3, ?_⟩
  · intro t i b idx ht hi hb hidx
    obtain ⟨rest, rfl, hshift⟩ := index_shift hidx
    exact h2.2 k i b _ hk hi hb (hshift _)
  · intro t i b idx row ht hi hb hidx hrow
    obtain ⟨rest, rfl, hshift⟩ := index_shift hidx
    exact h4 k i b _ row hk hi hb (hshift _) hrow

/-- **C143**, the violation. From files of grid points or bands, selecting one temperature gives a
calculation at all temperatures of the files, each with the collision matrix and the linewidths at the
selected temperature. -/
theorem C143_pieces_one [Zero K] (hx : ColSetting r temps numSlot slot)
    (hd : Holds colKind r (ColGood r temps rowDims numSlot slot w) d) (hk : k < r.numT)
    (hc : ColCovered r d) (hall : ∀ j < r.sigmas.length, ¬ Present colKind r d j .all)
    {st : ColRead K} (hst : st.temps = none) :
    ∃ out, setCollisionSelected (.list [k]) r numSlot slot rowDims d st = some (some out) ∧
      out.temps = some temps ∧
      ∀ j < r.sigmas.length, ∀ t < r.numT, ∀ i < r.gridPoints.length, ∀ b < r.numBand,
        (∀ row, List.Forall₂ (· < ·) row rowDims →
          out.colmat j t (slot i) b row = w.colmat j k (slot i) b row) ∧
        out.gamma j t (slot i) b = w.gamma j k (slot i) b := by
  have hd' : Holds colKind r (ColGood r temps rowDims numSlot slot (constCollisions w k))
      (fun n => (d n).map (constFile k)) := by
    intro j p n f hn hf
    obtain ⟨f', hf', rfl⟩ := Option.map_eq_some_iff.1 hf
    exact constFile_good hk (hd j p n f' hn hf')
  have hpres : ∀ j p, Present colKind r d j p → Present colKind r (fun n => (d n).map (constFile k)) j p :=
    fun j p ⟨n, hn, hs⟩ => ⟨n, hn, by simpa using hs⟩
  have hc' : ColCovered r (fun n => (d n).map (constFile k)) := by
    intro j hj
    rcases hc j hj with h | h
    · exact .inl (hpres _ _ h)
    · refine .inr fun i hi => ?_
      rcases h i hi with h | h
      · exact .inl (hpres _ _ h)
      · exact .inr fun b hb => hpres _ _ (h b hb)
  obtain ⟨out, h1, h2, h3⟩ := C55_read hx hd' hc' hst
  refine ⟨out, by rw [selected_one hx.some_temp hx.temps hd hk hall hst]; exact h1, h2, ?_⟩
  intro j hj t ht i hi b hb
  obtain ⟨h4, h5, h6⟩ := h3 j hj t ht i hi b hb
  refine ⟨h4, ?_⟩
  by_cases hp : Present colKind r (fun n => (d n).map (constFile k)) j .all ∨
      ¬ Present colKind r (fun n => (d n).map (constFile k)) j (.point i)
  · exact h6 hp
  · push Not at hp
    exact h5 hp.1 hp.2

/-- **C143**, the part that holds: one temperature selected from files for everything, or the only one
of files of grid points or bands, is restored with its collision matrix and its linewidths. -/
theorem C143_one_partial [Zero K] (hx : ColSetting r temps numSlot slot)
    (hd : Holds colKind r (ColGood r temps rowDims numSlot slot w) d) (hk : k < r.numT)
    (hcase : (∀ j < r.sigmas.length, Present colKind r d j .all) ∨
      (r.numT = 1 ∧ ColCovered r d ∧ ∀ j < r.sigmas.length, ¬ Present colKind r d j .all))
    {st : ColRead K} (hst : st.temps = none) :
    ∃ out, setCollisionSelected (.list [k]) r numSlot slot rowDims d st = some (some out) ∧
      out.temps = some [temps.getD k 0] ∧
      ∀ j < r.sigmas.length, ∀ i < r.gridPoints.length, ∀ b < r.numBand,
        (∀ row, List.Forall₂ (· < ·) row rowDims →
          out.colmat j 0 (slot i) b row = w.colmat j k (slot i) b row) ∧
        out.gamma j 0 (slot i) b = w.gamma j k (slot i) b := by
  rcases hcase with hall | ⟨h1, hc, hall⟩
  · obtain ⟨out, h1, h2, h3⟩ := C143_full (l := [k]) hx hd ⟨by simp, by simpa using hk⟩ (by simp) hall
      hst
    exact ⟨out, h1, h2, fun j hj i hi b hb => h3 j hj 0 k rfl i hi b hb⟩
  · obtain ⟨out, h2, h3, h4⟩ := C143_pieces_one hx hd hk hc hall hst
    refine ⟨out, h2, ?_, fun j hj i hi b hb => h4 j hj 0 (by omega) i hi b hb⟩
    have hlen := hx.temps
    have : k = 0 := by omega
    subst this
    rw [h3]
    match temps, hlen with
    | [a], _ => rfl
    | [], h => simp at h; omega
    | _ :: _ :: _, h => simp at h; omega

/-- **C143**, the violation. From files of grid points, selecting some but not all temperatures and more
than one raises. -/
theorem C143_pieces_raise [Zero K] (hx : ColSetting r temps numSlot slot)
    (hd : Holds colKind r (ColGood r temps rowDims numSlot slot w) d) (hl : ValidIndices l r.numT)
    (hl1 : l.length ≠ 1) (hlT : l.length ≠ r.numT) (hall : ¬ Present colKind r d 0 .all)
    (hp : Present colKind r d 0 (.point 0)) {st : ColRead K} (hst : st.temps = none) :
    setCollisionSelected (.list l) r numSlot slot rowDims d st = none := by
  obtain ⟨n, hn, hsome⟩ := hp
  obtain ⟨f, hf⟩ := Option.isSome_iff_exists.1 hsome
  have hgood := hd _ _ _ f hn hf
  obtain ⟨s, rest, hsig⟩ : ∃ s rest, r.sigmas = s :: rest := by
    cases h : r.sigmas with
    | nil => have := hx.some_sigma; rw [h] at this; simp at this
    | cons s rest => exact ⟨s, rest, rfl⟩
  obtain ⟨g, gs, hgs⟩ : ∃ g gs, r.gridPoints = g :: gs := by
    cases h : r.gridPoints with
    | nil => have := hx.some_point; rw [h] at this; simp at this
    | cons s rest => exact ⟨s, rest, rfl⟩
  have hs0 : r.sigmas[0]? = some s := by rw [hsig]; rfl
  have hn' : n = pieceName "collision".toList r s (some g) none := by
    unfold keyName at hn
    rw [hs0] at hn
    simp only [Option.bind_some] at hn
    rw [hgs] at hn
    exact (Option.some.inj hn).symm
  subst hn'
  obtain ⟨h1, h2, -, -⟩ := good_iff.1 hgood
  have hnone := not_present_none hs0 hall
  have hfirst : firstTemperatures r d s = some temps := by
    unfold firstTemperatures
    rw [hgs]
    simp only [List.head?_cons, Option.bind_some, hf]
    rw [h1]
  have hstore : ∀ a, storeGamma r.numT numSlot r.numBand 0 (.point (slot 0)) (selFile l f).gamma a =
      none := by
    intro a
    have hdims : f.gamma.dims = [r.numT, r.numBand] := h2.1
    unfold storeGamma NdArr.assign
    rw [if_neg]
    · rfl
    · simp [selFile, selArr, hdims, Piece.dims, fitsRev, hl1, hlT]
  have htake : takePoint r numSlot rowDims 0 (slot 0) (selFile l f) (allocateOnce temps st) = none := by
    have hT : ((allocateOnce temps st).temps.getD []).length = r.numT := by
      unfold allocateOnce; rw [hst]; exact hx.temps
    unfold takePoint
    simp only [hT, hstore, Option.bind_none]
  have hpoints : collectPointsSelected (.list l) r numSlot slot rowDims d 0 s (allocateOnce temps st) =
      none := by
    unfold collectPointsSelected
    rw [hgs, List.zipIdx_cons, List.foldlM_cons, readCollision_good hx.temps hl hgood hf]
    show (takePoint r numSlot rowDims 0 (slot 0) (selFile l f) (allocateOnce temps st)).bind _ = none
    rw [htake]
    rfl
  have hsigma : collectSigmaSelected (.list l) r numSlot slot rowDims d 0 s st = none := by
    unfold collectSigmaSelected
    rw [readCollision_none hnone]
    simp only [hfirst, hpoints, Option.map_none]
  unfold setCollisionSelected
  rw [hsig, List.zipIdx_cons, List.foldlM_cons]
  show (collectSigmaSelected (.list l) r numSlot slot rowDims d 0 s st).bind _ = none
  rw [hsigma]
  rfl

/-- **C143**, the violation. `read_collision=True` of the API never reads anything. -/
theorem C143_flag [Zero K] (hs : r.sigmas ≠ []) (hg : r.gridPoints ≠ []) (hB : 0 < r.numBand)
    (d : Disk (ColFile K)) (st out : ColRead K) :
    setCollisionSelected .flag r numSlot slot rowDims d st ≠ some (some out) := by
  have hread : ∀ n f, readCollision .flag d n ≠ some (some f) := by
    intro n f
    unfold readCollision
    split
    · simp
    · simp [ColFile.select]
  have hbands : ∀ j s g st, collectBandsSelected .flag r numSlot slot rowDims d j s g st = none := by
    intro j s g st
    unfold collectBandsSelected
    obtain ⟨n, hn⟩ : ∃ n, r.numBand = n + 1 := ⟨r.numBand - 1, by omega⟩
    rw [hn, List.range_succ_eq_map, List.foldlM_cons]
    split
    · rename_i f hf; exact absurd hf (hread _ _)
    · rfl
  have hpoints : ∀ j s st, collectPointsSelected .flag r numSlot slot rowDims d j s st = none := by
    intro j s st
    unfold collectPointsSelected
    cases hgs : r.gridPoints with
    | nil => exact absurd hgs hg
    | cons g gs =>
      rw [List.zipIdx_cons, List.foldlM_cons]
      split
      · rfl
      · rename_i f hf; exact absurd hf (hread _ _)
      · rw [hbands]; rfl
  have hsigma : ∀ j s st st', collectSigmaSelected .flag r numSlot slot rowDims d j s st ≠
      some (some st') := by
    intro j s st st'
    unfold collectSigmaSelected
    split
    · simp
    · rename_i f hf; exact absurd hf (hread _ _)
    · split
      · simp
      · rw [hpoints]; simp
  intro h
  unfold setCollisionSelected at h
  cases hsig : r.sigmas with
  | nil => exact absurd hsig hs
  | cons s rest =>
    rw [hsig, List.zipIdx_cons, List.foldlM_cons] at h
    obtain ⟨o, h1, h2⟩ := Option.bind_eq_some_iff.1 h
    cases o with
    | none =>
      have := foldlM_keeps (fun o : Option (ColRead K) => o = none) _ (by
        intro s _ o o' ho h
        subst ho
        exact (Option.some.inj h).symm) rfl h2
      simp at this
    | some st' => exact hsigma _ _ _ _ h1

/-- **C143**. All temperatures: the string `"all"` is the case of C55. -/
theorem C143_all [Zero K] (d : Disk (ColFile K)) (st : ColRead K) :
    setCollisionSelected .all r numSlot slot rowDims d st =
      setCollisionFromFile r numSlot slot rowDims d st := by
  have hread : ∀ n, readCollision .all d n = some (d n) := by
    intro n
    unfold readCollision
    cases d n <;> rfl
  unfold setCollisionSelected setCollisionFromFile
  refine foldlM_congr' (fun _ => True) _ ?_ (fun _ _ _ _ _ _ => trivial) _ trivial
  intro s _ o _
  cases o with
  | none => rfl
  | some st =>
    show collectSigmaSelected _ _ _ _ _ _ _ _ _ = collectSigma _ _ _ _ _ _ _ _
    unfold collectSigmaSelected collectSigma
    rw [hread]
    cases d (pieceName "collision".toList r s.1 none none) with
    | some f => rfl
    | none =>
      show (match firstTemperatures r d s.1 with
        | none => some none
        | some ts => (collectPointsSelected .all r numSlot slot rowDims d s.2 s.1
            (allocateOnce ts st)).map some) = _
      cases firstTemperatures r d s.1 with
      | none => rfl
      | some ts =>
        show (collectPointsSelected _ _ _ _ _ _ _ _ _).map some = (collectPoints _ _ _ _ _ _ _ _).map some
        congr 1
        unfold collectPointsSelected collectPoints
        refine foldlM_congr' (fun _ => True) _ ?_ (fun _ _ _ _ _ _ => trivial) _ trivial
        intro g _ st _
        rw [hread]
        cases d (pieceName "collision".toList r s.1 (some g.1) none) with
        | some f => rfl
        | none =>
          show collectBandsSelected _ _ _ _ _ _ _ _ _ _ = _
          unfold collectBandsSelected
          refine foldlM_congr' (fun _ => True) _ ?_ (fun _ _ _ _ _ _ => trivial) _ trivial
          intro b _ st _
          rw [hread]
          cases d (pieceName "collision".toList r s.1 (some g.1) (some b)) <;> rfl

/-- Writing a grid point with all bands makes no file for everything. -/
theorem absent_all {d' : Disk (ColFile K)} {i : Nat} (hr : Separate r)
    (hd : writeCollision r temps rowDims numSlot slot (List.range r.numBand) w (some i) d = some d')
    {j : Nat} (h : ¬ Present colKind r d j .all) : ¬ Present colKind r d' j .all := by
  unfold writeCollision at hd
  obtain ⟨gp, hgp, hd⟩ := Option.map_eq_some_iff.1 hd
  subst hd
  rw [if_pos rfl]
  refine foldl_keep (P := fun d => ¬ Present colKind r d j .all) _ _ _ h ?_
  rintro d s hs hd ⟨n, hn, hsome⟩
  unfold Disk.put at hsome
  split at hsome
  · rename_i heq
    have hn' : keyName colKind r s.2 (.point i) = some n := by
      unfold keyName; rw [zipIdx_getElem? hs]; simp only [Option.bind_some]; rw [hgp, heq]; rfl
    exact absurd (keyName_inj hr hn hn').2 (by simp)
  · exact hd ⟨n, hn, hsome⟩

/-- The documented procedure with two temperatures: pieces written for both grid points, then read with
`--read-collision 0`. Reading succeeds, the calculation has both temperatures, and the second one has
the collision matrix and the linewidths of the first. -/
theorem C143_documented : ∃ d d' out,
    writeCollision exampleStore [300, 400] [2, 2] 2 id (List.range 2) exampleCollisions (some 1)
      (fun _ => none) = some d ∧
    writeCollision exampleStore [300, 400] [2, 2] 2 id (List.range 2) exampleCollisions (some 0) d =
      some d' ∧
    setCollisionSelected (.list [0]) exampleStore 2 id [2, 2] d'
      { gamma := fun _ _ _ _ => 0, colmat := fun _ _ _ _ _ => 0 } = some (some out) ∧
    out.temps = some [300, 400] ∧ out.gamma 0 1 0 0 = exampleCollisions.gamma 0 0 0 0 ∧
    exampleCollisions.gamma 0 1 0 0 ≠ exampleCollisions.gamma 0 0 0 0 := by
  obtain ⟨d, hd⟩ : ∃ d, writeCollision exampleStore [300, 400] [2, 2] 2 id (List.range 2)
      exampleCollisions (some 1) (fun _ => none) = some d := ⟨_, rfl⟩
  obtain ⟨d', hd'⟩ : ∃ d', writeCollision exampleStore [300, 400] [2, 2] 2 id (List.range 2)
      exampleCollisions (some 0) d = some d' := ⟨_, rfl⟩
  have hsame : ∀ (i k b : Nat), (List.range 2)[k]? = some b →
      (∀ j t, exampleCollisions.gamma j t (id i) k = exampleCollisions.gamma j t (id i) b) ∧
        ∀ j t row, exampleCollisions.colmat j t (id i) k row =
          exampleCollisions.colmat j t (id i) b row := by
    intro i k b h
    have : k = b := by simpa using (List.getElem?_eq_some_iff.1 h).2
    subst this
    exact ⟨fun _ _ => rfl, fun _ _ _ => rfl⟩
  have hw : ColWritten exampleStore [300, 400] [2, 2] 2 id exampleCollisions d' :=
    .point _ 2 id _ 0 (hsame 0) (.point _ 2 id _ 1 (hsame 1) .empty hd) hd'
  have hc : ColCovered exampleStore d' := by
    intro j hj
    right
    intro i hi
    left
    have hi' : i < 2 := hi
    interval_cases i
    · exact (present_point hd' hj).1
    · exact (present_point hd' hj).2 _ _ (present_point hd hj).1
  have hnot : ∀ j < exampleStore.sigmas.length, ¬ Present colKind exampleStore d' j .all := by
    intro j _
    refine absent_all exampleStore_separate hd' (absent_all exampleStore_separate hd ?_)
    rintro ⟨n, _, h⟩
    simp at h
  obtain ⟨out, h1, h2, h3⟩ := C143_pieces_one (k := 0) exampleSetting
    (C55_written exampleStore_separate hw) (by decide) hc hnot
    (st := { gamma := fun _ _ _ _ => 0, colmat := fun _ _ _ _ _ => 0 }) rfl
  refine ⟨d, d', out, hd, hd', h1, h2,
    (h3 0 (by decide) 1 (by decide) 0 (by decide) 0 (by decide)).2, ?_⟩
  norm_num [exampleCollisions]

/-- From files for everything, both temperatures of the example may be selected in any number. -/
example : ∃ d out, writeCollision exampleStore [300, 400] [2, 2] 2 id (List.range 2) exampleCollisions
      none (fun _ => none) = some d ∧
    setCollisionSelected (.list [1]) exampleStore 2 id [2, 2] d
      { gamma := fun _ _ _ _ => 0, colmat := fun _ _ _ _ _ => 0 } = some (some out) ∧
    out.temps = some [400] ∧ out.gamma 0 0 0 0 = exampleCollisions.gamma 0 1 0 0 := by
  obtain ⟨d, hd⟩ : ∃ d, writeCollision exampleStore [300, 400] [2, 2] 2 id (List.range 2)
      exampleCollisions none (fun _ => none) = some d := ⟨_, rfl⟩
  obtain ⟨out, h1, h2, h3⟩ := C143_one_partial (k := 1) exampleSetting
    (C55_written exampleStore_separate (.all _ .empty hd))
    (by decide) (.inl fun j hj => present_all hd hj)
    (st := { gamma := fun _ _ _ _ => 0, colmat := fun _ _ _ _ _ => 0 }) rfl
  exact ⟨d, out, hd, h1, h2, (h3 0 (by decide) 0 (by decide) 0 (by decide)).2⟩

/-- With three temperatures, two of them cannot be read from files of grid points. -/
example : ∃ d, writeCollision { exampleStore with numT := 3 } [300, 400, 500] [2, 2] 2 id
      (List.range 2) exampleCollisions (some 0) (fun _ => none) = some d ∧
    setCollisionSelected (.list [0, 2]) { exampleStore with numT := 3 } 2 id [2, 2] d
      { gamma := fun _ _ _ _ => 0, colmat := fun _ _ _ _ _ => 0 } = none := by
  obtain ⟨d, hd⟩ : ∃ d, writeCollision { exampleStore with numT := 3 } [300, 400, 500] [2, 2] 2 id
      (List.range 2) exampleCollisions (some 0) (fun _ => none) = some d := ⟨_, rfl⟩
  have hsep : Separate { exampleStore with numT := 3 } :=
    ⟨exampleStore_separate.1, exampleStore_separate.2, exampleStore_separate.3,
      exampleStore_separate.4⟩
  have hsame : ∀ (k b : Nat), (List.range 2)[k]? = some b →
      (∀ j t, exampleCollisions.gamma j t (id 0) k = exampleCollisions.gamma j t (id 0) b) ∧
        ∀ j t row, exampleCollisions.colmat j t (id 0) k row =
          exampleCollisions.colmat j t (id 0) b row := by
    intro k b h
    have : k = b := by simpa using (List.getElem?_eq_some_iff.1 h).2
    subst this
    exact ⟨fun _ _ => rfl, fun _ _ _ => rfl⟩
  exact ⟨d, hd, C143_pieces_raise ⟨rfl, by decide, by decide, by decide, by decide, fun _ _ _ _ h => h,
      fun _ h => h⟩
    (C55_written hsep (.point _ 2 id _ 0 hsame .empty hd)) ⟨by simp, by simp⟩ (by decide) (by decide)
    (absent_all hsep hd (by rintro ⟨n, _, h⟩; simp at h)) (present_point hd (by decide)).1 rfl⟩

end Phono3py.Props
