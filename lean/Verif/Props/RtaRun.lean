import Verif.Spec.RtaRun
import Verif.Lemmas.StoredGamma
import Verif.Props.StoredGamma
import Verif.Props.CondIter

/-!
# C157: a conductivity put together from several runs
-/

namespace Phono3py.Props

open Phono3py Phono3py.Spec

variable {K : Type}

/-! ### Files of a run -/

/-- An array with the values of `g` at a sigma and grid point, for all bands or one. -/
def RowIs (numBand : Nat) (ts : List ℚ) (g : Option ℚ → ℚ → Nat → Nat → K) (sigma : Option ℚ)
    (gp : Nat) : Option Nat → NdArr K → Prop
  | none, a => a.dims = [ts.length, numBand] ∧
      ∀ t < ts.length, ∀ b < numBand, a.val [t, b] = g sigma (ts.getD t 0) gp b
  | some b, a => a.dims = [ts.length] ∧ ∀ t < ts.length, a.val [t] = g sigma (ts.getD t 0) gp b

/-- A file with the linewidths of a sigma, grid point and band or bands. -/
structure FileIs (s : RtaSettings) (w : RtaWorld K) (ts : List ℚ) (sigma : Option ℚ) (gp : Nat)
    (band : Option Nat) (f : KappaFile K) : Prop where
  gamma : RowIs s.numBand ts w.gamma sigma gp band f.gamma
  noParts : s.isNU = false → f.gammaN = none
  parts : s.isNU = true → ∃ n u, f.gammaN = some n ∧ f.gammaU = some u ∧
    RowIs s.numBand ts w.gammaN sigma gp band n ∧ RowIs s.numBand ts w.gammaU sigma gp band u

/-- The piece at position `i`: all bands or one. -/
def bandPiece (i : Nat) : Option Nat → Piece
  | none => .point i
  | some b => .band i b

theorem pieceName_congr (kind : List Char) {r r' : StoreArgs} (h1 : r'.mesh = r.mesh)
    (h2 : r'.cutoff = r.cutoff) (h3 : r'.name = r.name) (sigma : Option ℚ) (gp b : Option Nat) :
    pieceName kind r' sigma gp b = pieceName kind r sigma gp b := by
  unfold pieceName
  rw [h1, h2, h3]

theorem holds_put_any {F : Type} {kind : List Char} {r : StoreArgs} {good : Nat → Piece → F → Prop}
    {d : Disk F} (h : Holds kind r good d) {n : List Char} {f : F}
    (hn : ∀ j p, keyName kind r j p = some n → good j p f) : Holds kind r good (d.put n f) := by
  intro j p m g hm hg
  unfold Disk.put at hg
  split at hg
  · rename_i hmn
    subst hmn
    simp only [Option.some.injEq] at hg
    subst hg
    exact hn j p hm
  · exact h j p m g hm hg

section
variable {s : RtaSettings} {w : RtaWorld K} {ts : List ℚ}

theorem carries_of_row {g : Option ℚ → ℚ → Nat → Nat → K} {sigma : Option ℚ} {gp : Nat}
    {band : Option Nat} {a : NdArr K} (hlen : ts.length = s.temps.length) (hp : s.points = none)
    (ha : RowIs s.numBand ts g sigma gp band a) {j i : Nat} (hj : s.sigmas[j]? = some sigma)
    (hi : w.meshPoints[i]? = some gp) :
    Carries (rtaStore s w s.inName).numT (rtaStore s w s.inName).gridPoints.length
      (rtaStore s w s.inName).numBand (bandPiece i band)
      (fun t i b => g (s.sigmas.getD j none) (ts.getD t 0) (w.meshPoints.getD i 0) b) a := by
  have e1 : s.sigmas.getD j none = sigma := by
    rw [List.getD_eq_getElem?_getD, hj, Option.getD_some]
  have e2 : w.meshPoints.getD i 0 = gp := by
    rw [List.getD_eq_getElem?_getD, hi, Option.getD_some]
  cases band with
  | none =>
    refine ⟨by rw [ha.1, hlen]; rfl, ?_⟩
    intro t i' b idx ht _ hb hidx
    simp only [bandPiece, Piece.index] at hidx
    split at hidx
    · rename_i h
      subst h
      simp only [Option.some.injEq] at hidx
      subst hidx
      beta_reduce
      rw [e1, e2]
      exact ha.2 t (by rw [hlen]; exact ht) b hb
    · simp at hidx
  | some b0 =>
    refine ⟨by rw [ha.1, hlen]; rfl, ?_⟩
    intro t i' b idx ht _ hb hidx
    simp only [bandPiece, Piece.index] at hidx
    split at hidx
    · rename_i h
      obtain ⟨rfl, rfl⟩ := h
      simp only [Option.some.injEq] at hidx
      subst hidx
      beta_reduce
      rw [e1, e2]
      exact ha.2 t (by rw [hlen]; exact ht)
    · simp at hidx

theorem fileIs_good {sigma : Option ℚ} {gp : Nat}
    {band : Option Nat} {f : KappaFile K} (hlen : ts.length = s.temps.length) (hp : s.points = none)
    (hf : FileIs s w ts sigma gp band f) {j i : Nat} (hj : s.sigmas[j]? = some sigma)
    (hi : w.meshPoints[i]? = some gp) :
    KappaGood (rtaStore s w s.inName) (trueWidths s w ts) j
      (bandPiece i band) f := by
  refine ⟨carries_of_row hlen hp hf.gamma hj hi, ?_⟩
  cases hnu : s.isNU with
  | false =>
    simp only [trueWidths, hnu]
    exact hf.noParts hnu
  | true =>
    simp only [trueWidths, hnu]
    obtain ⟨n, u, h1, h2, h3, h4⟩ := hf.parts hnu
    exact ⟨n, u, h1, h2, carries_of_row hlen hp h3 hj hi, carries_of_row hlen hp h4 hj hi⟩

/-- A file of a grid point, of the mesh or not, keeps the directory good. -/
theorem fileIs_put (hlen : ts.length = s.temps.length) (hp : s.points = none)
    (hr : Separate (rtaStore s w s.inName)) {d : Disk (KappaFile K)}
    (h : Holds kappaKind (rtaStore s w s.inName)
      (KappaGood (rtaStore s w s.inName) (trueWidths s w ts)) d)
    {sigma : Option ℚ} (hsig : sigma ∈ s.sigmas) {gp : Nat} {band : Option Nat} {f : KappaFile K}
    (hf : FileIs s w ts sigma gp band f) :
    Holds kappaKind (rtaStore s w s.inName) (KappaGood (rtaStore s w s.inName) (trueWidths s w ts))
      (d.put (pieceName kappaKind (rtaStore s w s.inName) sigma (some gp) band) f) := by
  have hpts : (rtaStore s w s.inName).gridPoints = w.meshPoints := by
    show rtaPoints s w = _
    unfold rtaPoints
    rw [hp]; rfl
  refine holds_put_any h ?_
  intro j p hkey
  unfold keyName at hkey
  obtain ⟨s', hs', hkey⟩ := Option.bind_eq_some_iff.1 hkey
  have hm : s' ∈ (rtaStore s w s.inName).sigmas := List.mem_of_getElem? hs'
  obtain ⟨j0, hj0⟩ := List.mem_iff_getElem?.1 hsig
  have hjj : WithinMillionth s' sigma → s' = sigma ∧ s.sigmas[j]? = some sigma := by
    intro hw
    have : j = j0 := hr.sigma_apart j j0 s' sigma hs' hj0 hw
    subst this
    have h2 : some s' = some sigma := hs'.symm.trans hj0
    exact ⟨Option.some.inj h2, hj0⟩
  cases p with
  | all =>
    simp only [Option.some.injEq] at hkey
    have := (pieceName_inj hr hm hsig hkey).1
    simp at this
  | point i =>
    obtain ⟨g, hg, hkey⟩ := Option.map_eq_some_iff.1 hkey
    obtain ⟨h1, h2, h3⟩ := pieceName_inj hr hm hsig hkey
    simp only [Option.some.injEq] at h1
    subst h1; subst h2
    rw [hpts] at hg
    exact fileIs_good hlen hp hf (hjj h3).2 hg
  | band i b =>
    obtain ⟨g, hg, hkey⟩ := Option.map_eq_some_iff.1 hkey
    obtain ⟨h1, h2, h3⟩ := pieceName_inj hr hm hsig hkey
    simp only [Option.some.injEq] at h1
    subst h1; subst h2
    rw [hpts] at hg
    exact fileIs_good hlen hp hf (hjj h3).2 hg

end

/-! ### The loop -/

/-- Entries of the arrays of a calculating run at position `i` are those of the grid point `gp`. -/
theorem fillPoint_at (s : RtaSettings) (f : Option ℚ → ℚ → Nat → Nat → K) (gp i : Nat)
    (a : Nat → Nat → Nat → Nat → K) (j t k : Nat) :
    fillPoint s f gp i a j t i k = f (s.sigmas.getD j none) (s.temps.getD t 0) gp (s.bands.getD k 0) := by
  unfold fillPoint
  rw [setAt_same]

theorem point_nu (s : RtaSettings) (w : RtaWorld K) (st : RtaState K) (gp i : Nat) :
    (rtaPoint s w st gp i).widths.nu.isSome = st.widths.nu.isSome := by
  unfold rtaPoint
  split <;> simp

theorem point_iso (s : RtaSettings) (w : RtaWorld K) (st : RtaState K) (gp i : Nat) :
    (rtaPoint s w st gp i).iso.isSome = st.iso.isSome := by
  simp [rtaPoint]

theorem bands_getD {n k b : Nat} {l : List Nat} (h : l = List.range n) (hk : k < n) (_ : b = k) :
    l.getD k 0 = k := by
  subst h
  simp [List.getD_eq_getElem?_getD, hk]

/-- Each file of a grid point in a calculating run holds the linewidths of this grid point. -/
theorem gammaPuts_files (p : RtaSettings) (w : RtaWorld K) (st : RtaState K) (hread : st.read = false)
    (hnu : st.widths.nu.isSome = p.isNU) (r : StoreArgs) (h1 : r.sigmas = p.sigmas)
    (h2 : r.numT = p.temps.length) (h3 : r.numBand = p.numBand) (gp i : Nat) (x : RtaPut K)
    (hx : x ∈ gammaPuts r (allBands p) p.bands (rtaPoint p w st gp i).widths i gp) :
    ∃ sigma ∈ p.sigmas, ∃ band, x.1 = pieceName kappaKind r sigma (some gp) band ∧
      FileIs p w p.temps sigma gp band x.2 := by
  have hw : (rtaPoint p w st gp i).widths =
      { gamma := fillPoint p w.gamma gp i st.widths.gamma
        nu := st.widths.nu.map fun q =>
          (fillPoint p w.gammaN gp i q.1, fillPoint p w.gammaU gp i q.2) } := by
    simp [rtaPoint, hread]
  rw [hw] at hx
  unfold gammaPuts at hx
  cases hall : allBands p with
  | true =>
    rw [hall, if_pos rfl] at hx
    have hb : p.bands = List.range p.numBand := by simpa [allBands] using hall
    obtain ⟨sj, hsj, rfl⟩ := List.mem_map.1 hx
    have hsig := zipIdx_getElem? hsj
    rw [h1] at hsig
    have hget : p.sigmas.getD sj.2 none = sj.1 := by
      rw [List.getD_eq_getElem?_getD, hsig, Option.getD_some]
    have row : ∀ (f : Option ℚ → ℚ → Nat → Nat → K) (a : Nat → Nat → Nat → Nat → K),
        RowIs p.numBand p.temps f sj.1 gp none (pointSlice r (fillPoint p f gp i a) sj.2 i) := by
      intro f a
      refine ⟨by simp [pointSlice, h2, h3], ?_⟩
      intro t _ b hb'
      show fillPoint p f gp i a sj.2 t i b = _
      rw [fillPoint_at, hget, bands_getD hb hb' rfl]
    refine ⟨sj.1, List.mem_of_getElem? hsig, none, rfl, row _ _, ?_, ?_⟩
    · intro h
      rw [h] at hnu
      simp only [Option.isSome_eq_false_iff, Option.isNone_iff_eq_none] at hnu
      simp [hnu]
    · intro h
      rw [h] at hnu
      obtain ⟨q, hq⟩ := Option.isSome_iff_exists.1 hnu
      exact ⟨_, _, by rw [hq]; rfl, by rw [hq]; rfl, row _ _, row _ _⟩
  | false =>
    rw [hall, if_neg (by simp)] at hx
    obtain ⟨sj, hsj, hx⟩ := List.mem_flatMap.1 hx
    obtain ⟨bk, hbk, rfl⟩ := List.mem_map.1 hx
    have hsig := zipIdx_getElem? hsj
    rw [h1] at hsig
    have hget : p.sigmas.getD sj.2 none = sj.1 := by
      rw [List.getD_eq_getElem?_getD, hsig, Option.getD_some]
    have hbnd := zipIdx_getElem? hbk
    have hbg : p.bands.getD bk.2 0 = bk.1 := by
      rw [List.getD_eq_getElem?_getD, hbnd, Option.getD_some]
    have row : ∀ (f : Option ℚ → ℚ → Nat → Nat → K) (a : Nat → Nat → Nat → Nat → K),
        RowIs p.numBand p.temps f sj.1 gp (some bk.1)
          (bandSlice r (fillPoint p f gp i a) sj.2 i bk.2) := by
      intro f a
      refine ⟨by simp [bandSlice, h2], ?_⟩
      intro t _
      show fillPoint p f gp i a sj.2 t i bk.2 = _
      rw [fillPoint_at, hget, hbg]
    refine ⟨sj.1, List.mem_of_getElem? hsig, some bk.1, rfl, row _ _, ?_, ?_⟩
    · intro h
      rw [h] at hnu
      simp only [Option.isSome_eq_false_iff, Option.isNone_iff_eq_none] at hnu
      simp [hnu]
    · intro h
      rw [h] at hnu
      obtain ⟨q, hq⟩ := Option.isSome_iff_exists.1 hnu
      exact ⟨_, _, by rw [hq]; rfl, by rw [hq]; rfl, row _ _, row _ _⟩

/-- What a call of `write_gamma` leaves: nothing, or all its files. -/
theorem gammaEffect_puts (p : RtaSettings) (r : StoreArgs) (st : RtaState K)
    (hiso : st.iso.isSome = true → allBands p = true ∨ p.compress = false) (i gp : Nat) :
    (gammaEffect p r st i gp).puts = [] ∨
      (gammaEffect p r st i gp).puts = gammaPuts r (allBands p) p.bands st.widths i gp := by
  unfold gammaEffect
  split
  · exact .inl rfl
  · split
    · rename_i h
      rcases hiso h.2.2.1 with h' | h'
      · rw [h.1] at h'; simp at h'
      · rw [h'] at h; simp at h
    · exact .inr rfl

/-- All files of the loop hold what belongs in them. -/
theorem loop_files (p : RtaSettings) (w : RtaWorld K) (r : StoreArgs) (h1 : r.sigmas = p.sigmas)
    (h2 : r.numT = p.temps.length) (h3 : r.numBand = p.numBand) (l : List (Nat × Nat))
    (st : RtaState K) (hread : st.read = false) (hnu : st.widths.nu.isSome = p.isNU)
    (hiso : st.iso.isSome = true → allBands p = true ∨ p.compress = false) :
    ∀ x ∈ (rtaLoop p w r l st).2.1, ∃ sigma ∈ p.sigmas, ∃ gp band,
      x.1 = pieceName kappaKind r sigma (some gp) band ∧ FileIs p w p.temps sigma gp band x.2 := by
  induction l generalizing st with
  | nil => intro x hx; simp [rtaLoop] at hx
  | cons g l ih =>
    obtain ⟨gp, i⟩ := g
    have hread' : (rtaPoint p w st gp i).read = false := hread
    have hnu' : (rtaPoint p w st gp i).widths.nu.isSome = p.isNU := by rw [point_nu, hnu]
    have hiso' : (rtaPoint p w st gp i).iso.isSome = true →
        allBands p = true ∨ p.compress = false := by rw [point_iso]; exact hiso
    have he : ∀ x ∈ (pointEffect p r (rtaPoint p w st gp i) i gp).puts, ∃ sigma ∈ p.sigmas, ∃ gp band,
          x.1 = pieceName kappaKind r sigma (some gp) band ∧
            FileIs p w p.temps sigma gp band x.2 := by
      intro x hx
      unfold pointEffect at hx
      split at hx
      · rcases gammaEffect_puts p r (rtaPoint p w st gp i) hiso' i gp with h | h
        · rw [h] at hx; simp at hx
        · rw [h] at hx
          obtain ⟨sigma, hs, band, hh⟩ :=
            gammaPuts_files p w st hread hnu r h1 h2 h3 gp i x hx
          exact ⟨sigma, hs, gp, band, hh⟩
      · simp at hx
    intro x hx
    simp only [rtaLoop] at hx
    split at hx
    · exact he x hx
    · rcases List.mem_append.1 hx with hx | hx
      · exact he x hx
      · exact ih _ hread' hnu' hiso' x hx

/-- What is kept and filled in by the loop. -/
theorem loop_state (p : RtaSettings) (w : RtaWorld K) (r : StoreArgs) (hw : p.writeGamma = false)
    (pts : List Nat) (l : List (Nat × Nat)) (hl : ∀ g ∈ l, pts[g.2]? = some g.1) (st : RtaState K) :
    (rtaLoop p w r l st).2.1 = [] ∧ (rtaLoop p w r l st).2.2 = false ∧
    (rtaLoop p w r l st).1.read = st.read ∧
    (rtaLoop p w r l st).1.iso.isSome = st.iso.isSome ∧
    (∀ a a', st.iso = some a → (rtaLoop p w r l st).1.iso = some a' → ∀ j i k,
      ((∃ g ∈ l, g.2 = i) ∨
        a j i k = w.iso (p.sigmas.getD j none) (pts.getD i 0) (p.bands.getD k 0)) →
      a' j i k = w.iso (p.sigmas.getD j none) (pts.getD i 0) (p.bands.getD k 0)) ∧
    (st.read = true → (rtaLoop p w r l st).1.widths = st.widths) ∧
    (st.read = false → (rtaLoop p w r l st).1.widths.nu.isSome = st.widths.nu.isSome ∧
      (∀ j t i k, ((∃ g ∈ l, g.2 = i) ∨ st.widths.gamma j t i k =
          w.gamma (p.sigmas.getD j none) (p.temps.getD t 0) (pts.getD i 0) (p.bands.getD k 0)) →
        (rtaLoop p w r l st).1.widths.gamma j t i k =
          w.gamma (p.sigmas.getD j none) (p.temps.getD t 0) (pts.getD i 0) (p.bands.getD k 0)) ∧
      ∀ q q', st.widths.nu = some q → (rtaLoop p w r l st).1.widths.nu = some q' →
        (∀ j t i k, ((∃ g ∈ l, g.2 = i) ∨ q.1 j t i k =
            w.gammaN (p.sigmas.getD j none) (p.temps.getD t 0) (pts.getD i 0) (p.bands.getD k 0)) →
          q'.1 j t i k =
            w.gammaN (p.sigmas.getD j none) (p.temps.getD t 0) (pts.getD i 0) (p.bands.getD k 0)) ∧
        (∀ j t i k, ((∃ g ∈ l, g.2 = i) ∨ q.2 j t i k =
            w.gammaU (p.sigmas.getD j none) (p.temps.getD t 0) (pts.getD i 0) (p.bands.getD k 0)) →
          q'.2 j t i k =
            w.gammaU (p.sigmas.getD j none) (p.temps.getD t 0) (pts.getD i 0) (p.bands.getD k 0))) := by
  induction l generalizing st with
  | nil =>
    refine ⟨rfl, rfl, rfl, rfl, ?_, fun _ => rfl, fun _ => ⟨rfl, ?_, ?_⟩⟩
    · rintro a a' ha ha' j i k (h | h)
      · simp at h
      · have : some a = some a' := ha.symm.trans ha'
        cases this
        exact h
    · rintro j t i k (h | h)
      · simp at h
      · exact h
    · intro q q' hq hq'
      have : some q = some q' := hq.symm.trans hq'
      cases this
      constructor <;>
      · rintro j t i k (h | h)
        · simp at h
        · exact h
  | cons g l ih =>
    obtain ⟨gp, i0⟩ := g
    have hg : pts[i0]? = some gp := hl (gp, i0) (by simp)
    have hgd : pts.getD i0 0 = gp := by
      rw [List.getD_eq_getElem?_getD, hg, Option.getD_some]
    have step : rtaLoop p w r ((gp, i0) :: l) st = rtaLoop p w r l (rtaPoint p w st gp i0) := by
      simp [rtaLoop, pointEffect, hw]
    obtain ⟨h1, h2, h3, h4, h5, h6, h7⟩ := ih (fun g h => hl g (by simp [h])) (rtaPoint p w st gp i0)
    rw [step]
    refine ⟨h1, h2, h3, by rw [h4, point_iso], ?_, ?_, ?_⟩
    · intro a a' ha ha' j i k hh
      refine h5 (fun j => setAt (a j) i0 fun k => w.iso (p.sigmas.getD j none) gp (p.bands.getD k 0))
        a' (by simp only [rtaPoint, ha, Option.map_some]) ha' j i k ?_
      beta_reduce
      by_cases hi : i = i0
      · subst hi
        right
        rw [setAt_same, hgd]
      · rcases hh with ⟨g, hgm, rfl⟩ | hh
        · rcases List.mem_cons.1 hgm with rfl | hgm
          · exact absurd rfl hi
          · exact .inl ⟨g, hgm, rfl⟩
        · right
          rw [setAt_other _ _ hi]
          exact hh
    · intro hr
      rw [h6 hr]
      simp [rtaPoint, hr]
    · intro hr
      obtain ⟨k1, k2, k3⟩ := h7 hr
      have hwid : (rtaPoint p w st gp i0).widths =
          { gamma := fillPoint p w.gamma gp i0 st.widths.gamma
            nu := st.widths.nu.map fun q =>
              (fillPoint p w.gammaN gp i0 q.1, fillPoint p w.gammaU gp i0 q.2) } := by
        simp [rtaPoint, hr]
      have fill : ∀ (f : Option ℚ → ℚ → Nat → Nat → K) (a : Nat → Nat → Nat → Nat → K) (j t i k : Nat),
          ((∃ g ∈ (gp, i0) :: l, g.2 = i) ∨ a j t i k =
            f (p.sigmas.getD j none) (p.temps.getD t 0) (pts.getD i 0) (p.bands.getD k 0)) →
          ((∃ g ∈ l, g.2 = i) ∨ fillPoint p f gp i0 a j t i k =
            f (p.sigmas.getD j none) (p.temps.getD t 0) (pts.getD i 0) (p.bands.getD k 0)) := by
        intro f a j t i k hh
        by_cases hi : i = i0
        · subst hi
          right
          rw [fillPoint_at, hgd]
        · rcases hh with ⟨g, hgm, rfl⟩ | hh
          · rcases List.mem_cons.1 hgm with rfl | hgm
            · exact absurd rfl hi
            · exact .inl ⟨g, hgm, rfl⟩
          · right
            unfold fillPoint
            rw [setAt_other _ _ hi]
            exact hh
      refine ⟨by rw [k1, point_nu], ?_, ?_⟩
      · intro j t i k hh
        refine k2 j t i k ?_
        rw [hwid]
        exact fill w.gamma _ j t i k hh
      · intro q q' hq hq'
        obtain ⟨m1, m2⟩ := k3 (fillPoint p w.gammaN gp i0 q.1, fillPoint p w.gammaU gp i0 q.2) q'
          (by rw [hwid, hq]; rfl) hq'
        exact ⟨fun j t i k hh => m1 j t i k (fill w.gammaN _ j t i k hh),
          fun j t i k hh => m2 j t i k (fill w.gammaU _ j t i k hh)⟩


/-- The arrays do not depend on whether files are written. -/
theorem loop_noWrite (p : RtaSettings) (w : RtaWorld K) (r : StoreArgs) (l : List (Nat × Nat))
    (st : RtaState K) (h : (rtaLoop p w r l st).2.2 = false) :
    (rtaLoop p w r l st).1 = (rtaLoop { p with writeGamma := false } w r l st).1 := by
  induction l generalizing st with
  | nil => rfl
  | cons g l ih =>
    obtain ⟨gp, i⟩ := g
    have step : rtaLoop { p with writeGamma := false } w r ((gp, i) :: l) st =
        rtaLoop { p with writeGamma := false } w r l (rtaPoint p w st gp i) := by
      simp only [rtaLoop, pointEffect]
      rfl
    rw [step]
    simp only [rtaLoop] at h ⊢
    split
    · rename_i hr
      rw [if_pos hr] at h
      simp at h
    · rename_i hr
      rw [if_neg hr] at h
      exact ih _ h

/-- Linewidths agree, and parts are there in both or neither. -/
def WidthsAgree (r : StoreArgs) (u v : Linewidths K) : Prop :=
  v.nu.isSome = u.nu.isSome ∧ SameLinewidths r u v

theorem trueWidths_nu (s : RtaSettings) (w : RtaWorld K) (ts : List ℚ) :
    (trueWidths s w ts).nu.isSome = s.isNU := by
  unfold trueWidths
  cases s.isNU <;> rfl

theorem zipIdx_position {A : Type} {l : List A} {i : Nat} (hi : i < l.length) :
    ∃ g ∈ l.zipIdx, g.2 = i :=
  ⟨(l[i], i), List.mem_zipIdx_iff_getElem?.2 (by simp [hi]), rfl⟩

section
variable [Zero K]

/-- A calculating run over the whole mesh and all bands holds the linewidths of the mesh. -/
theorem direct_widths (p : RtaSettings) (w : RtaWorld K) (hp : p.points = none)
    (hb : p.bands = List.range p.numBand) (name : Option (List Char)) (r : StoreArgs)
    (hr : (rtaLoop p w r (rtaPoints p w).zipIdx (rtaInit p)).2.2 = false) :
    WidthsAgree (rtaStore p w name) (trueWidths p w p.temps)
      (rtaLoop p w r (rtaPoints p w).zipIdx (rtaInit p)).1.widths := by
  have hpts : rtaPoints p w = w.meshPoints := by unfold rtaPoints; rw [hp]; rfl
  rw [loop_noWrite p w r _ _ hr, hpts]
  obtain ⟨-, -, -, -, -, -, h7⟩ := loop_state { p with writeGamma := false } w r rfl w.meshPoints
    w.meshPoints.zipIdx (fun g hg => zipIdx_getElem? hg) (rtaInit p)
  obtain ⟨k1, k2, k3⟩ := h7 rfl
  have hin : (rtaInit p : RtaState K).widths.nu.isSome = p.isNU := by
    unfold rtaInit
    cases p.isNU <;> rfl
  refine ⟨by rw [k1, hin, trueWidths_nu], ?_⟩
  intro j hj t ht i hi b hb'
  have hi' : i < w.meshPoints.length := by
    have : (rtaStore p w name).gridPoints = w.meshPoints := hpts
    rw [← this]; exact hi
  have hbd : p.bands.getD b 0 = b := bands_getD hb hb' rfl
  have hz := zipIdx_position hi'
  refine ⟨?_, ?_⟩
  · rw [k2 j t i b (.inl hz)]
    show w.gamma _ _ _ (p.bands.getD b 0) = w.gamma _ _ _ b
    rw [hbd]
  · intro q hq
    have hnu : p.isNU = true := by rw [← trueWidths_nu p w p.temps, hq]; rfl
    obtain ⟨q', hq'⟩ := Option.isSome_iff_exists.1 (k1.trans (hin.trans hnu))
    have hi0 : (rtaInit p : RtaState K).widths.nu = some (fun _ _ _ _ => 0, fun _ _ _ _ => 0) := by
      simp [rtaInit, hnu]
    obtain ⟨m1, m2⟩ := k3 _ q' hi0 hq'
    have e : q = (fun j t i b => w.gammaN (p.sigmas.getD j none) (p.temps.getD t 0)
          (w.meshPoints.getD i 0) b,
        fun j t i b => w.gammaU (p.sigmas.getD j none) (p.temps.getD t 0)
          (w.meshPoints.getD i 0) b) := by
      simp only [trueWidths, hnu, if_true, Option.some.injEq] at hq
      exact hq.symm
    refine ⟨q', hq', ?_, ?_⟩
    · rw [m1 j t i b (.inl hz), e]
      show w.gammaN _ _ _ (p.bands.getD b 0) = w.gammaN _ _ _ b
      rw [hbd]
    · rw [m2 j t i b (.inl hz), e]
      show w.gammaU _ _ _ (p.bands.getD b 0) = w.gammaU _ _ _ b
      rw [hbd]

omit [Zero K] in
/-- A summary of linewidths that agree keeps the directory good. -/
theorem summary_put {r : StoreArgs} {u v : Linewidths K} (hr : Separate r)
    (hone : r.gridPoints.length ≠ 1) (hv : WidthsAgree r u v) {d : Disk (KappaFile K)}
    (h : Holds kappaKind r (KappaGood r u) d) (x : RtaPut K) (hx : x ∈ kappaPuts r v) :
    Holds kappaKind r (KappaGood r u) (d.put x.1 x.2) := by
  unfold kappaPuts at hx
  obtain ⟨sj, hsj, rfl⟩ := List.mem_map.1 hx
  have hsig := zipIdx_getElem? hsj
  have hj : sj.2 < r.sigmas.length := (List.getElem?_eq_some_iff.1 hsig).1
  have hsum : summaryPoint r.gridPoints = none := by
    unfold summaryPoint
    split
    · rename_i g hg; rw [hg] at hone; simp at hone
    · rfl
  have hn : keyName kappaKind r sj.2 .all =
      some (pieceName "kappa".toList r sj.1 (summaryPoint r.gridPoints) none) := by
    unfold keyName; rw [hsig, hsum]; rfl
  have hall : ∀ a a' : Nat → Nat → Nat → Nat → K,
      (∀ t < r.numT, ∀ i < r.gridPoints.length, ∀ b < r.numBand, a' sj.2 t i b = a sj.2 t i b) →
      Carries r.numT r.gridPoints.length r.numBand .all (a sj.2) (allSlice r a' sj.2) := by
    intro a a' haa
    refine ⟨rfl, ?_⟩
    intro t i b idx ht hi hb hidx
    simp only [Piece.index, Option.some.injEq] at hidx; subst hidx
    exact haa t ht i hi b hb
  refine holds_put hr h hn ⟨hall _ _ fun t ht i hi b hb => (hv.2 sj.2 hj t ht i hi b hb).1, ?_⟩
  rcases hq : u.nu with _ | q
  · have := hv.1
    rw [hq] at this
    have hvn : v.nu = none := by simpa using this
    show v.nu.map _ = none
    rw [hvn]; rfl
  · have := hv.1
    rw [hq] at this
    obtain ⟨q', hq'⟩ := Option.isSome_iff_exists.1 this
    refine ⟨_, _, by show v.nu.map _ = _; rw [hq']; rfl, by show v.nu.map _ = _; rw [hq']; rfl,
      hall _ _ ?_, hall _ _ ?_⟩
    · intro t ht i hi b hb
      obtain ⟨q2, h1, h2, -⟩ := (hv.2 sj.2 hj t ht i hi b hb).2 q hq
      rw [hq'] at h1
      cases h1
      exact h2
    · intro t ht i hi b hb
      obtain ⟨q2, h1, -, h2⟩ := (hv.2 sj.2 hj t ht i hi b hb).2 q hq
      rw [hq'] at h1
      cases h1
      exact h2

/-! ### A run keeps the directory good -/

variable {s : RtaSettings} {w : RtaWorld K} {ts : List ℚ}

/-- The good directories for a calculation. -/
abbrev GoodDisk (s : RtaSettings) (w : RtaWorld K) (ts : List ℚ) (d : Disk (KappaFile K)) : Prop :=
  Holds kappaKind (rtaStore s w s.inName) (KappaGood (rtaStore s w s.inName) (trueWidths s w ts)) d

omit [Zero K] in
theorem piece_store (hs : s.points = none) (hlen : ts.length = s.temps.length) {p : RtaSettings}
    (hp : PieceOf s w ts p) (hpp : p.points = none) :
    rtaStore p w p.outName = rtaStore s w s.inName := by
  have e : rtaPoints p w = rtaPoints s w := by unfold rtaPoints; rw [hs, hpp]
  unfold rtaStore
  rw [hp.mesh, hp.cutoff, hp.sigmas, hp.temps, hp.numBand, hp.name, hlen, e]

omit [Zero K] in
theorem piece_widths {p : RtaSettings} (hp : PieceOf s w ts p) :
    trueWidths p w p.temps = trueWidths s w ts := by
  unfold trueWidths
  rw [hp.sigmas, hp.temps, hp.isNU]

omit [Zero K] in
theorem piece_file {p : RtaSettings} (hp : PieceOf s w ts p) {sigma : Option ℚ} {gp : Nat}
    {band : Option Nat} {f : KappaFile K} (h : FileIs p w p.temps sigma gp band f) :
    FileIs s w ts sigma gp band f := by
  obtain ⟨h1, h2, h3⟩ := h
  rw [hp.temps, hp.numBand] at h1 h3
  rw [hp.isNU] at h2 h3
  exact ⟨h1, h2, h3⟩

omit [Zero K] in
theorem store_points (hs : s.points = none) (name : Option (List Char)) :
    (rtaStore s w name).gridPoints = w.meshPoints := by
  show rtaPoints s w = _
  unfold rtaPoints
  rw [hs]; rfl

/-- What is read back from a good directory. -/
theorem good_read (hs : s.points = none) {d : Disk (KappaFile K)} (h : GoodDisk s w ts d) :
    (Covered kappaKind (rtaStore s w s.inName) d →
      ∃ v, setGammaFromFile (rtaStore s w s.inName) d = some (some v) ∧
        WidthsAgree (rtaStore s w s.inName) (trueWidths s w ts) (rtaTake (rtaInit s) v).widths) ∧
    (¬ Covered kappaKind (rtaStore s w s.inName) d →
      setGammaFromFile (rtaStore s w s.inName) d = some none) := by
  obtain ⟨h1, h2⟩ := C56_read h
  refine ⟨fun hc => ?_, h2⟩
  obtain ⟨v, hv, hsame⟩ := h1 hc
  refine ⟨v, hv, ?_, ?_⟩
  · rw [trueWidths_nu]
    cases hnu : s.isNU with
    | true => cases hq : v.nu <;> simp [rtaTake, rtaInit, hnu, hq]
    | false =>
      have : v.nu = none := C56_no_parts h (by simp [trueWidths, hnu]) hv
      simp [rtaTake, rtaInit, hnu, this]
  · intro j hj t ht i hi b hb
    obtain ⟨k1, k2⟩ := hsame j hj t ht i hi b hb
    refine ⟨k1, ?_⟩
    intro q hq
    obtain ⟨q', hq', k3⟩ := k2 q hq
    exact ⟨q', by simp [rtaTake, hq'], k3⟩

/-- The loop of a run that writes no files of grid points. -/
theorem whole_go (p : RtaSettings) (hp : Whole p) (st : RtaState K) (hread : st.read = true) :
    (rtaGo p w st).puts = (if p.writeKappa then kappaPuts (rtaStore p w p.outName) st.widths else []) := by
  obtain ⟨h1, h2, -, -, -, h6, -⟩ := loop_state p w (rtaStore p w p.outName) hp.writeGamma
    (rtaPoints p w) (rtaPoints p w).zipIdx (fun g hg => zipIdx_getElem? hg) st
  have hall : allBands p = true := by simp [allBands, hp.bands]
  unfold rtaGo rtaFinish
  rw [if_neg (by rw [h2]; simp), if_pos ⟨hp.points, hall⟩, h1, h6 hread]
  simp

/-- Every file of a run of the calculation keeps the directory good. -/
theorem run_puts (hs : s.points = none) (hlen : ts.length = s.temps.length)
    (hr : Separate (rtaStore s w s.inName)) {p : RtaSettings} (hp : PieceOf s w ts p)
    {d : Disk (KappaFile K)} (hd : GoodDisk s w ts d) (x : RtaPut K) (hx : x ∈ (rtaRun p w d).puts)
    (d' : Disk (KappaFile K)) (hd' : GoodDisk s w ts d') : GoodDisk s w ts (d'.put x.1 x.2) := by
  have hone : p.writeKappa = true → (rtaStore s w s.inName).gridPoints.length ≠ 1 := by
    intro h
    rw [store_points hs]
    exact hp.one h
  unfold rtaRun at hx
  cases hread : p.readGamma with
  | true =>
    obtain ⟨hwh, hin⟩ := hp.read hread
    rw [hread, if_pos rfl] at hx
    have est : rtaStore p w p.inName = rtaStore s w s.inName := by
      rw [← piece_store hs hlen hp hwh.points, hin, hp.name]
    rw [est] at hx
    obtain ⟨h1, h2⟩ := good_read hs hd
    by_cases hc : Covered kappaKind (rtaStore s w s.inName) d
    · obtain ⟨v, hv, hag⟩ := h1 hc
      rw [hv] at hx
      simp only [rtaAfterRead] at hx
      rw [whole_go p hwh _ rfl, piece_store hs hlen hp hwh.points] at hx
      split at hx
      · rename_i hk
        have hag' : WidthsAgree (rtaStore s w s.inName) (trueWidths s w ts)
            (rtaTake (rtaInit p) v).widths := by
          have : (rtaInit p : RtaState K).widths = (rtaInit s : RtaState K).widths := by
            simp [rtaInit, hp.isNU]
          unfold rtaTake at hag ⊢
          rw [this]
          exact hag
        exact summary_put hr (hone hk) hag' hd' x hx
      · simp at hx
    · rw [h2 hc] at hx
      simp [rtaAfterRead] at hx
  | false =>
    rw [hread, if_neg (by simp)] at hx
    have hfiles := loop_files p w (rtaStore p w p.outName) rfl rfl rfl (rtaPoints p w).zipIdx
      (rtaInit p) rfl (by cases h : p.isNU <;> simp [rtaInit, h])
      (by
        intro h
        apply hp.isotope
        cases h' : p.isIsotope with
        | true => rfl
        | false => simp [rtaInit, h'] at h)
    have hput : ∀ x ∈ (rtaLoop p w (rtaStore p w p.outName) (rtaPoints p w).zipIdx (rtaInit p)).2.1,
        GoodDisk s w ts (d'.put x.1 x.2) := by
      intro x hx
      obtain ⟨sigma, hsig, gp, band, hn, hf⟩ := hfiles x hx
      rw [hn, pieceName_congr kappaKind (r := rtaStore s w s.inName) hp.mesh hp.cutoff hp.name]
      rw [hp.sigmas] at hsig
      exact fileIs_put hlen hs hr hd' hsig (piece_file hp hf)
    unfold rtaGo rtaFinish at hx
    split at hx
    · exact hput x hx
    · rename_i hraised
      split at hx
      · rename_i hfull
        rcases List.mem_append.1 hx with hx | hx
        · exact hput x hx
        · split at hx
          · rename_i hk
            have hb : p.bands = List.range p.numBand := by simpa [allBands] using hfull.2
            have hag := direct_widths p w hfull.1 hb p.outName (rtaStore p w p.outName)
              (by simpa using hraised)
            rw [piece_store hs hlen hp hfull.1, piece_widths hp] at hag
            rw [piece_store hs hlen hp hfull.1] at hx
            exact summary_put hr (hone hk) hag hd' x hx
          · simp at hx
      · exact hput x hx

theorem runs_good (hs : s.points = none) (hlen : ts.length = s.temps.length)
    (hr : Separate (rtaStore s w s.inName)) (l : List (RtaSettings × Nat))
    (hl : ∀ p ∈ l, PieceOf s w ts p.1) {d : Disk (KappaFile K)} (hd : GoodDisk s w ts d) :
    GoodDisk s w ts (rtaRuns w l d) := by
  unfold rtaRuns
  refine foldl_keep _ _ _ hd ?_
  intro d p hp hd
  unfold rtaKilled putAll
  refine foldl_keep _ _ _ hd ?_
  intro d' x hx hd'
  exact run_puts hs hlen hr (hl p hp) hd x (List.mem_of_mem_take hx) d' hd'

/-! ### The theorems -/

/-- Rows are the same when the entries in range are. -/
theorem gammaRows_congr {n m : Nat} {a a' : Nat → Nat → K}
    (h : ∀ i < n, ∀ b < m, a i b = a' i b) : gammaRows n m a = gammaRows n m a' := by
  unfold gammaRows
  refine List.map_congr_left fun i hi => List.map_congr_left fun b hb => ?_
  exact h i (List.mem_range.1 hi) b (List.mem_range.1 hb)

/-- A run over the whole mesh from given arrays returns its result. -/
theorem whole_outcome (p : RtaSettings) (hp : Whole p) (st : RtaState K) :
    (rtaGo p w st).outcome = .result
      { state := (rtaLoop p w (rtaStore p w p.outName) (rtaPoints p w).zipIdx st).1
        kappa := some (rtaKappa p w
          (rtaLoop p w (rtaStore p w p.outName) (rtaPoints p w).zipIdx st).1) } := by
  obtain ⟨-, h2, -⟩ := loop_state p w (rtaStore p w p.outName) hp.writeGamma
    (rtaPoints p w) (rtaPoints p w).zipIdx (fun g hg => zipIdx_getElem? hg) st
  have hall : allBands p = true := by simp [allBands, hp.bands]
  unfold rtaGo rtaFinish
  rw [if_neg (by rw [h2]; simp), if_pos ⟨hp.points, hall⟩]

/-- **C157 (resumption).** Any number of runs of a calculation, at any grid points and bands, in any
order, repeated, and each killed after any number of files, are made in a directory without files.
Then a run over the whole mesh that reads the stored linewidths returns the linewidths, isotope
linewidths and conductivity of a run that computes everything, if the files cover the mesh, and
otherwise ends with `False` and writes nothing.

Full claim: for all runs.  Missing: sigmas closer than a millionth (`Separate`), runs at other
temperatures (`C157_other_temperatures`), directories with a summary of another calculation
(`C157_old_summary`), isotope scattering with a selection of bands (`C157_isotope_bands`), summaries
for a single grid point (C56), and averaged interaction strengths, which are not modelled. -/
theorem C157_resume_partial (hs : Whole s) (hr : Separate (rtaStore s w s.inName))
    (l : List (RtaSettings × Nat)) (hl : ∀ p ∈ l, PieceOf s w s.temps p.1) :
    (Covered kappaKind (rtaStore s w s.inName) (rtaRuns w l fun _ => none) →
      ∃ x y,
        (rtaRun { s with readGamma := true } w (rtaRuns w l fun _ => none)).outcome = .result x ∧
        (rtaRun { s with readGamma := false } w (rtaRuns w l fun _ => none)).outcome = .result y ∧
        SameResult s w x y) ∧
    (¬ Covered kappaKind (rtaStore s w s.inName) (rtaRuns w l fun _ => none) →
      rtaRun { s with readGamma := true } w (rtaRuns w l fun _ => none) =
        { puts := [], outcome := .failed }) := by
  have hgood := runs_good hs.points rfl hr l hl (d := fun _ => none)
    (by intro j p n f _ hf; simp at hf)
  generalize rtaRuns w l (fun _ => none) = d at hgood
  obtain ⟨h1, h2⟩ := good_read hs.points hgood
  have hstore : rtaStore { s with readGamma := true } w s.inName = rtaStore s w s.inName := rfl
  constructor
  · intro hc
    obtain ⟨v, hv, hag⟩ := h1 hc
    have hwt : Whole { s with readGamma := true } := ⟨hs.points, hs.bands, hs.writeGamma⟩
    have hwf : Whole { s with readGamma := false } := ⟨hs.points, hs.bands, hs.writeGamma⟩
    have ex : rtaRun { s with readGamma := true } w d =
        rtaGo { s with readGamma := true } w (rtaTake (rtaInit s) v) := by
      unfold rtaRun
      rw [if_pos rfl]
      show rtaAfterRead _ _ (setGammaFromFile (rtaStore s w s.inName) d) = _
      rw [hv]
      rfl
    have ey : rtaRun { s with readGamma := false } w d =
        rtaGo { s with readGamma := false } w (rtaInit s) := by
      unfold rtaRun
      rw [if_neg (by simp)]
      rfl
    rw [ex, ey, whole_outcome _ hwt, whole_outcome _ hwf]
    refine ⟨_, _, rfl, rfl, ?_⟩
    have hpts : rtaPoints s w = w.meshPoints := by unfold rtaPoints; rw [hs.points]; rfl
    obtain ⟨-, -, -, a4, a5, a6, -⟩ := loop_state { s with readGamma := true } w
      (rtaStore { s with readGamma := true } w s.outName) hs.writeGamma
      (rtaPoints { s with readGamma := true } w) (rtaPoints { s with readGamma := true } w).zipIdx
      (fun g hg => zipIdx_getElem? hg) (rtaTake (rtaInit s) v)
    obtain ⟨-, b2, -, b4, b5, -, -⟩ := loop_state { s with readGamma := false } w
      (rtaStore { s with readGamma := false } w s.outName) hs.writeGamma
      (rtaPoints { s with readGamma := false } w) (rtaPoints { s with readGamma := false } w).zipIdx
      (fun g hg => zipIdx_getElem? hg) (rtaInit s)
    have hdir := direct_widths { s with readGamma := false } w hs.points hs.bands s.inName
      (rtaStore { s with readGamma := false } w s.outName) b2
    replace a6 := a6 rfl
    generalize hx : (rtaLoop { s with readGamma := true } w
      (rtaStore { s with readGamma := true } w s.outName)
      (rtaPoints { s with readGamma := true } w).zipIdx (rtaTake (rtaInit s) v)).1 = X at a4 a5 a6 ⊢
    have hinit : (rtaInit { s with readGamma := false } : RtaState K) = rtaInit s := rfl
    rw [hinit] at hdir
    generalize hy : (rtaLoop { s with readGamma := false } w
      (rtaStore { s with readGamma := false } w s.outName)
      (rtaPoints { s with readGamma := false } w).zipIdx (rtaInit s)).1 = Y at b4 b5 hdir ⊢
    have hw : WidthsAgree (rtaStore s w s.inName) Y.widths X.widths := by
      rw [a6]
      have e : trueWidths { s with readGamma := false } w s.temps = trueWidths s w s.temps := rfl
      obtain ⟨c1, c2⟩ := hdir
      obtain ⟨d1, d2⟩ := hag
      refine ⟨d1.trans c1.symm, ?_⟩
      intro j hj t ht i hi b hb
      obtain ⟨e1, e2⟩ := c2 j hj t ht i hi b hb
      obtain ⟨f1, f2⟩ := d2 j hj t ht i hi b hb
      refine ⟨f1.trans e1.symm, ?_⟩
      intro q hq
      have hT : (trueWidths s w s.temps).nu.isSome := by
        rw [e] at c1
        rw [← c1, hq]; rfl
      obtain ⟨q0, hq0⟩ := Option.isSome_iff_exists.1 hT
      obtain ⟨q1, hq1, g1, g2⟩ := e2 q0 hq0
      obtain ⟨q2, hq2, g3, g4⟩ := f2 q0 hq0
      rw [hq] at hq1
      cases hq1
      exact ⟨q2, hq2, g3.trans g1.symm, g4.trans g2.symm⟩
    have hiso : X.iso.isSome = Y.iso.isSome ∧ ∀ a a', X.iso = some a → Y.iso = some a' →
        ∀ j < s.sigmas.length, ∀ i < w.meshPoints.length, ∀ b < s.numBand, a j i b = a' j i b := by
      refine ⟨a4.trans b4.symm, ?_⟩
      intro a a' ha ha' j _ i hi b _
      have hz : ∃ g ∈ (rtaPoints s w).zipIdx, g.2 = i := zipIdx_position (by rw [hpts]; exact hi)
      have hsome : (rtaInit s : RtaState K).iso.isSome := by rw [← b4, ha']; rfl
      obtain ⟨a0, ha0⟩ := Option.isSome_iff_exists.1 hsome
      rw [a5 a0 a ha0 ha j i b (.inl hz), b5 a0 a' ha0 ha' j i b (.inl hz)]
      rfl
    refine ⟨?_, hw.2, ?_, hiso⟩
    · show some _ = some _
      congr 1
      unfold rtaKappa
      refine List.map_congr_left fun j hj => List.map_congr_left fun t ht => ?_
      have hj' : j < s.sigmas.length := List.mem_range.1 hj
      have ht' : t.2 < s.temps.length := (List.getElem?_eq_some_iff.1 (zipIdx_getElem? ht)).1
      have e1 : gammaRows (rtaPoints s w).length s.numBand (X.widths.gamma j t.2) =
          gammaRows (rtaPoints s w).length s.numBand (Y.widths.gamma j t.2) :=
        gammaRows_congr fun i hi b hb => (hw.2 j hj' t.2 ht' i hi b hb).1
      have e2 : (X.iso.map fun a => gammaRows (rtaPoints s w).length s.numBand (a j)) =
          (Y.iso.map fun a => gammaRows (rtaPoints s w).length s.numBand (a j)) := by
        cases hX : X.iso with
        | none =>
          have : Y.iso.isSome = false := by rw [← hiso.1, hX]; rfl
          rw [Option.isSome_eq_false_iff, Option.isNone_iff_eq_none] at this
          rw [this]
        | some a =>
          have : Y.iso.isSome = true := by rw [← hiso.1, hX]; rfl
          obtain ⟨a', ha'⟩ := Option.isSome_iff_exists.1 this
          rw [ha']
          show some _ = some _
          congr 1
          exact gammaRows_congr fun i hi b hb =>
            hiso.2 a a' hX ha' j hj' i (by rw [← hpts]; exact hi) b hb
      show w.kappa s.kind t.1 (rtaPoints s w) _ _ = w.kappa s.kind t.1 (rtaPoints s w) _ _
      exact congrArg₂ (w.kappa s.kind t.1 (rtaPoints s w)) e1 e2
    · intro hn
      have := hw.1
      show X.widths.nu = none
      have hn' : Y.widths.nu = none := hn
      rw [hn'] at this
      simpa using this
  · intro hc
    unfold rtaRun
    rw [if_pos rfl]
    show rtaAfterRead _ _ (setGammaFromFile (rtaStore s w s.inName) d) = _
    rw [h2 hc]
    rfl

/-! ### Which files are there -/

omit [Zero K] in
theorem putAll_isSome {d : Disk (KappaFile K)} {n : List Char} (h : (d n).isSome)
    (l : List (RtaPut K)) : (putAll d l n).isSome := by
  unfold putAll
  refine foldl_keep (P := fun d : Disk (KappaFile K) => (d n).isSome) _ _ _ h ?_
  intro d x _ hd
  show (Disk.put d x.1 x.2 n).isSome
  unfold Disk.put
  split
  · rfl
  · exact hd

omit [Zero K] in
theorem putAll_mem {d : Disk (KappaFile K)} {n : List Char} {l : List (RtaPut K)}
    (h : n ∈ l.map Prod.fst) : (putAll d l n).isSome := by
  obtain ⟨x, hx, rfl⟩ := List.mem_map.1 h
  unfold putAll
  refine foldl_reach (P := fun d : Disk (KappaFile K) => (d x.1).isSome) _ _ _ x hx ?_ ?_
  · intro d
    simp [Disk.put]
  · intro d y _ hd
    show (Disk.put d y.1 y.2 x.1).isSome
    unfold Disk.put
    split
    · rfl
    · exact hd

omit [Zero K] in
theorem gammaPuts_names (r : StoreArgs) (p : RtaSettings) (v : Linewidths K) (i gp : Nat)
    {sigma : Option ℚ} (hs : sigma ∈ r.sigmas) :
    (allBands p = true → pieceName kappaKind r sigma (some gp) none ∈
      (gammaPuts r (allBands p) p.bands v i gp).map Prod.fst) ∧
    (allBands p = false → ∀ b ∈ p.bands, pieceName kappaKind r sigma (some gp) (some b) ∈
      (gammaPuts r (allBands p) p.bands v i gp).map Prod.fst) := by
  obtain ⟨j, hj⟩ := List.mem_iff_getElem?.1 hs
  have hz : (sigma, j) ∈ r.sigmas.zipIdx := List.mem_zipIdx_iff_getElem?.2 hj
  constructor
  · intro h
    rw [h]
    unfold gammaPuts
    rw [if_pos rfl]
    exact List.mem_map.2 ⟨_, List.mem_map.2 ⟨_, hz, rfl⟩, rfl⟩
  · intro h b hb
    rw [h]
    obtain ⟨k, hk⟩ := List.mem_iff_getElem?.1 hb
    have hbz : (b, k) ∈ p.bands.zipIdx := List.mem_zipIdx_iff_getElem?.2 hk
    unfold gammaPuts
    rw [if_neg (by simp)]
    exact List.mem_map.2 ⟨_, List.mem_flatMap.2 ⟨_, hz, List.mem_map.2 ⟨_, hbz, rfl⟩⟩, rfl⟩

omit [Zero K] in
theorem gammaEffect_ok (p : RtaSettings) (r : StoreArgs) (st : RtaState K) (hk : p.kind ≠ .kubo)
    (hiso : st.iso.isSome = true → allBands p = true ∨ p.compress = false) (i gp : Nat) :
    gammaEffect p r st i gp =
      { puts := gammaPuts r (allBands p) p.bands st.widths i gp, raised := false } := by
  unfold gammaEffect
  rw [if_neg (fun h => hk h.1), if_neg]
  rintro ⟨h1, h2, h3, -⟩
  rcases hiso h3 with h | h
  · rw [h1] at h; simp at h
  · rw [h2] at h; simp at h

omit [Zero K] in
theorem loop_names (p : RtaSettings) (w : RtaWorld K) (r : StoreArgs) (hw : p.writeGamma = true)
    (hk : p.kind ≠ .kubo) (l : List (Nat × Nat)) (st : RtaState K)
    (hiso : st.iso.isSome = true → allBands p = true ∨ p.compress = false) :
    ∀ g ∈ l, ∀ sigma ∈ r.sigmas,
      (allBands p = true → pieceName kappaKind r sigma (some g.1) none ∈
        (rtaLoop p w r l st).2.1.map Prod.fst) ∧
      (allBands p = false → ∀ b ∈ p.bands, pieceName kappaKind r sigma (some g.1) (some b) ∈
        (rtaLoop p w r l st).2.1.map Prod.fst) := by
  induction l generalizing st with
  | nil => intro g hg; simp at hg
  | cons g l ih =>
    obtain ⟨gp, i⟩ := g
    have hiso' : (rtaPoint p w st gp i).iso.isSome = true →
        allBands p = true ∨ p.compress = false := by rw [point_iso]; exact hiso
    have he : pointEffect p r (rtaPoint p w st gp i) i gp =
        { puts := gammaPuts r (allBands p) p.bands (rtaPoint p w st gp i).widths i gp
          raised := false } := by
      unfold pointEffect
      rw [if_pos hw, gammaEffect_ok p r _ hk hiso']
    have hl : (rtaLoop p w r ((gp, i) :: l) st).2.1 =
        gammaPuts r (allBands p) p.bands (rtaPoint p w st gp i).widths i gp ++
          (rtaLoop p w r l (rtaPoint p w st gp i)).2.1 := by
      simp [rtaLoop, he]
    rw [hl, List.map_append]
    intro g hg sigma hs
    rcases List.mem_cons.1 hg with rfl | hg
    · obtain ⟨h1, h2⟩ := gammaPuts_names r p (rtaPoint p w st gp i).widths i gp hs
      exact ⟨fun h => List.mem_append_left _ (h1 h),
        fun h b hb => List.mem_append_left _ (h2 h b hb)⟩
    · obtain ⟨h1, h2⟩ := ih (rtaPoint p w st gp i) hiso' g hg sigma hs
      exact ⟨fun h => List.mem_append_right _ (h1 h),
        fun h b hb => List.mem_append_right _ (h2 h b hb)⟩

/-- A run that came to its end leaves the files of its grid points. -/
theorem ended_names {p : RtaSettings × Nat} (hp : PieceOf s w ts p.1) (hw : p.1.writeGamma = true)
    (hk : p.1.kind ≠ .kubo) (hend : Ended w p) {gp : Nat} (hgp : gp ∈ rtaPoints p.1 w)
    {sigma : Option ℚ} (hs : sigma ∈ s.sigmas) (d : Disk (KappaFile K)) :
    (allBands p.1 = true → (rtaKilled p.1 w p.2 d
      (pieceName kappaKind (rtaStore s w s.inName) sigma (some gp) none)).isSome) ∧
    (allBands p.1 = false → ∀ b ∈ p.1.bands, (rtaKilled p.1 w p.2 d
      (pieceName kappaKind (rtaStore s w s.inName) sigma (some gp) (some b))).isSome) := by
  have hread : p.1.readGamma = false := by
    cases h : p.1.readGamma with
    | false => rfl
    | true => rw [(hp.read h).1.writeGamma] at hw; simp at hw
  have hrun : rtaRun p.1 w d = rtaGo p.1 w (rtaInit p.1) := by
    unfold rtaRun
    rw [hread, if_neg (by simp)]
  have hall : (rtaRun p.1 w d).puts.take p.2 = (rtaRun p.1 w d).puts :=
    List.take_of_length_le (hend d)
  obtain ⟨i, hi⟩ := List.mem_iff_getElem?.1 hgp
  have hz : (gp, i) ∈ (rtaPoints p.1 w).zipIdx := List.mem_zipIdx_iff_getElem?.2 hi
  have hs' : sigma ∈ (rtaStore p.1 w p.1.outName).sigmas := by
    show sigma ∈ p.1.sigmas
    rw [hp.sigmas]; exact hs
  obtain ⟨h1, h2⟩ := loop_names p.1 w (rtaStore p.1 w p.1.outName) hw hk (rtaPoints p.1 w).zipIdx
    (rtaInit p.1) (by
      intro h
      apply hp.isotope
      cases h' : p.1.isIsotope with
      | true => rfl
      | false => simp [rtaInit, h'] at h) (gp, i) hz sigma hs'
  have hsub : ∀ n, n ∈ (rtaLoop p.1 w (rtaStore p.1 w p.1.outName) (rtaPoints p.1 w).zipIdx
      (rtaInit p.1)).2.1.map Prod.fst → n ∈ (rtaRun p.1 w d).puts.map Prod.fst := by
    intro n hn
    rw [hrun]
    unfold rtaGo rtaFinish
    split
    · exact hn
    · split
      · rw [List.map_append]
        exact List.mem_append_left _ hn
      · exact hn
  have hname : ∀ b, pieceName kappaKind (rtaStore s w s.inName) sigma (some gp) b =
      pieceName kappaKind (rtaStore p.1 w p.1.outName) sigma (some gp) b := fun b =>
    (pieceName_congr kappaKind (r := rtaStore s w s.inName) (r' := rtaStore p.1 w p.1.outName)
      hp.mesh hp.cutoff hp.name sigma (some gp) b).symm
  unfold rtaKilled
  rw [hall]
  refine ⟨fun h => ?_, fun h b hb => ?_⟩
  · rw [hname]
    exact putAll_mem (hsub _ (h1 h))
  · rw [hname]
    exact putAll_mem (hsub _ (h2 h b hb))

theorem runs_isSome {n : List Char} {d : Disk (KappaFile K)} (h : (d n).isSome)
    (l : List (RtaSettings × Nat)) : (rtaRuns w l d n).isSome := by
  unfold rtaRuns
  refine foldl_keep (P := fun d : Disk (KappaFile K) => (d n).isSome) _ _ _ h ?_
  intro d p _ hd
  exact putAll_isSome hd _

theorem runs_reach {n : List Char} {p : RtaSettings × Nat}
    (h : ∀ d : Disk (KappaFile K), (rtaKilled p.1 w p.2 d n).isSome)
    (l : List (RtaSettings × Nat)) (hp : p ∈ l) (d : Disk (KappaFile K)) :
    (rtaRuns w l d n).isSome := by
  unfold rtaRuns
  refine foldl_reach (P := fun d : Disk (KappaFile K) => (d n).isSome) _ _ _ p hp h ?_
  intro d p _ hd
  exact putAll_isSome hd _

/-- **C157 (completeness).** If every grid point of the mesh was done by runs that came to their
end, then the files cover the mesh, whatever other runs were made or killed before, between or
after. -/
theorem C157_done (hs : s.points = none) (l : List (RtaSettings × Nat))
    (hl : ∀ p ∈ l, PieceOf s w ts p.1) (hdone : AllDone w s.numBand l) (d : Disk (KappaFile K)) :
    Covered kappaKind (rtaStore s w s.inName) (rtaRuns w l d) := by
  intro j hj
  right
  intro i hi
  have hsig : s.sigmas[j]? = some s.sigmas[j] := List.getElem?_eq_getElem hj
  have hmem : s.sigmas[j] ∈ s.sigmas := List.getElem_mem _
  have hpts := store_points (w := w) hs s.inName
  obtain ⟨gp, hgp⟩ : ∃ gp, w.meshPoints[i]? = some gp := by
    rw [hpts] at hi
    exact ⟨_, List.getElem?_eq_getElem hi⟩
  have hgp' : (rtaStore s w s.inName).gridPoints[i]? = some gp := by rw [hpts]; exact hgp
  rcases hdone gp (List.mem_of_getElem? hgp) with ⟨p, hp, h1, h2, h3, h4, h5⟩ | hb
  · left
    refine ⟨_, ?_, runs_reach (fun d => (ended_names (hl p hp) h2 h3 h5 h1 hmem d).1 h4) l hp d⟩
    show (s.sigmas[j]?).bind _ = _
    rw [hsig]
    show ((rtaStore s w s.inName).gridPoints[i]?).map _ = _
    rw [hgp']; rfl
  · right
    intro b hb'
    obtain ⟨p, hp, h1, h2, h3, h4, h5, h6⟩ := hb b hb'
    refine ⟨_, ?_, runs_reach (fun d => (ended_names (hl p hp) h2 h3 h6 h1 hmem d).2 h4 b h5) l hp d⟩
    show (s.sigmas[j]?).bind _ = _
    rw [hsig]
    show ((rtaStore s w s.inName).gridPoints[i]?).map _ = _
    rw [hgp']; rfl

/-! ### Where the claim fails -/

/-- The temperatures stored with the linewidths are not looked at: from files made at other
temperatures `ts`, as many as the run has, the run takes the linewidths at `ts` for those at its
own. -/
theorem C157_other_temperatures (hs : Whole s) (hlen : ts.length = s.temps.length)
    (hr : Separate (rtaStore s w s.inName)) (l : List (RtaSettings × Nat))
    (hl : ∀ p ∈ l, PieceOf s w ts p.1) (hdone : AllDone w s.numBand l) :
    ∃ x, (rtaRun { s with readGamma := true } w (rtaRuns w l fun _ => none)).outcome = .result x ∧
      SameLinewidths (rtaStore s w s.inName) (trueWidths s w ts) x.state.widths := by
  have hgood := runs_good hs.points hlen hr l hl (d := fun _ => none)
    (by intro j p n f _ hf; simp at hf)
  have hc := C157_done hs.points l hl hdone (fun _ => none)
  obtain ⟨v, hv, hag⟩ := (good_read hs.points hgood).1 hc
  have hwt : Whole { s with readGamma := true } := ⟨hs.points, hs.bands, hs.writeGamma⟩
  have ex : rtaRun { s with readGamma := true } w (rtaRuns w l fun _ => none) =
      rtaGo { s with readGamma := true } w (rtaTake (rtaInit s) v) := by
    unfold rtaRun
    rw [if_pos rfl]
    show rtaAfterRead _ _ (setGammaFromFile (rtaStore s w s.inName) _) = _
    rw [hv]
    rfl
  rw [ex, whole_outcome _ hwt]
  obtain ⟨-, -, -, -, -, a6, -⟩ := loop_state { s with readGamma := true } w
    (rtaStore { s with readGamma := true } w s.outName) hs.writeGamma
    (rtaPoints { s with readGamma := true } w) (rtaPoints { s with readGamma := true } w).zipIdx
    (fun g hg => zipIdx_getElem? hg) (rtaTake (rtaInit s) v)
  refine ⟨_, rfl, ?_⟩
  show SameLinewidths _ _ (rtaLoop _ _ _ _ _).1.widths
  rw [a6 rfl]
  exact hag.2

theorem foldlM_congr {A B : Type} {f g : A → B → Option A} (l : List B)
    (h : ∀ a, ∀ b ∈ l, f a b = g a b) (a : A) : l.foldlM f a = l.foldlM g a := by
  induction l generalizing a with
  | nil => rfl
  | cons b l ih =>
    rw [List.foldlM_cons, List.foldlM_cons, h a b (by simp)]
    congr 1
    funext a'
    exact ih (fun a b hb => h a b (by simp [hb])) a'

open Classical in
/-- Linewidths are taken from the summaries alone if these are there. -/
theorem read_summaries {r : StoreArgs} (hr : Separate r) {u : Linewidths K} {d : Disk (KappaFile K)}
    (h : ∀ (j : Nat) (sigma : Option ℚ), r.sigmas[j]? = some sigma →
      ∃ f, d (pieceName kappaKind r sigma none none) = some f ∧ KappaGood r u j .all f) :
    ∃ v, setGammaFromFile r d = some (some v) ∧ SameLinewidths r u v := by
  let d1 : Disk (KappaFile K) := fun n =>
    if ∃ sigma ∈ r.sigmas, n = pieceName kappaKind r sigma none none then d n else none
  have hd1 : ∀ sigma ∈ r.sigmas, d1 (pieceName kappaKind r sigma none none) =
      d (pieceName kappaKind r sigma none none) := by
    intro sigma hs
    show (if _ then _ else _) = _
    rw [if_pos ⟨sigma, hs, rfl⟩]
  have hsame : setGammaFromFile r d = setGammaFromFile r d1 := by
    unfold setGammaFromFile readSigmas
    congr 1
    refine foldlM_congr _ ?_ _
    intro st s hs
    have hsig := zipIdx_getElem? hs
    obtain ⟨f, hf, -⟩ := h s.2 s.1 hsig
    have h2 := hd1 s.1 (List.mem_of_getElem? hsig)
    rw [hf] at h2
    have e1 : d (pieceName "kappa".toList r s.1 none none) = some f := hf
    have e2 : d1 (pieceName "kappa".toList r s.1 none none) = some f := h2
    rw [e1, e2]
  rw [hsame]
  have hholds : Holds kappaKind r (KappaGood r u) d1 := by
    intro j p n f hn hf
    have hex : ∃ sigma ∈ r.sigmas, n = pieceName kappaKind r sigma none none := by
      by_contra hne
      have : d1 n = none := if_neg hne
      rw [this] at hf
      simp at hf
    obtain ⟨sigma, hs, rfl⟩ := hex
    obtain ⟨j0, hj0⟩ := List.mem_iff_getElem?.1 hs
    have hkey : keyName kappaKind r j0 .all = some (pieceName kappaKind r sigma none none) := by
      unfold keyName; rw [hj0]; rfl
    obtain ⟨rfl, rfl⟩ := keyName_inj hr hn hkey
    obtain ⟨f', hf', hg⟩ := h j sigma hj0
    rw [hd1 sigma hs, hf'] at hf
    simp only [Option.some.injEq] at hf
    subst hf
    exact hg
  refine (C56_read hholds).1 ?_
  intro j hj
  left
  have hsig : r.sigmas[j]? = some r.sigmas[j] := List.getElem?_eq_getElem hj
  obtain ⟨f, hf, -⟩ := h j _ hsig
  refine ⟨pieceName kappaKind r r.sigmas[j] none none, by unfold keyName; rw [hsig]; rfl, ?_⟩
  rw [hd1 _ (List.getElem_mem _), hf]; rfl

/-- Summaries with the linewidths `u` of another calculation are used in preference to any files
of grid points, also those made later: with them in the directory, no run at grid points changes
what a reading run takes for its linewidths. -/
theorem C157_old_summary (hs : Whole s) (hr : Separate (rtaStore s w s.inName)) (u : Linewidths K)
    (d : Disk (KappaFile K))
    (hd : ∀ (j : Nat) (sigma : Option ℚ), s.sigmas[j]? = some sigma →
      ∃ f, d (pieceName kappaKind (rtaStore s w s.inName) sigma none none) = some f ∧
        KappaGood (rtaStore s w s.inName) u j .all f)
    (l : List (RtaSettings × Nat))
    (hl : ∀ p ∈ l, PieceOf s w s.temps p.1 ∧ p.1.writeKappa = false ∧ p.1.readGamma = false) :
    ∃ x, (rtaRun { s with readGamma := true } w (rtaRuns w l d)).outcome = .result x ∧
      ∀ j < s.sigmas.length, ∀ t < s.temps.length, ∀ i < w.meshPoints.length, ∀ b < s.numBand,
        x.state.widths.gamma j t i b = u.gamma j t i b := by
  have hkeep : ∀ (j : Nat) (sigma : Option ℚ), s.sigmas[j]? = some sigma →
      ∃ f, rtaRuns w l d (pieceName kappaKind (rtaStore s w s.inName) sigma none none) = some f ∧
        KappaGood (rtaStore s w s.inName) u j .all f := by
    unfold rtaRuns
    refine foldl_keep (P := fun d : Disk (KappaFile K) => ∀ (j : Nat) (sigma : Option ℚ),
      s.sigmas[j]? = some sigma →
      ∃ f, d (pieceName kappaKind (rtaStore s w s.inName) sigma none none) = some f ∧
        KappaGood (rtaStore s w s.inName) u j .all f) _ _ _ hd ?_
    intro d p hp hd
    obtain ⟨hpiece, hk, hread⟩ := hl p hp
    unfold rtaKilled putAll
    refine foldl_keep (P := fun d : Disk (KappaFile K) => ∀ (j : Nat) (sigma : Option ℚ),
      s.sigmas[j]? = some sigma →
      ∃ f, d (pieceName kappaKind (rtaStore s w s.inName) sigma none none) = some f ∧
        KappaGood (rtaStore s w s.inName) u j .all f) _ _ _ hd ?_
    intro d' x hx hd' j sigma hj
    have hx := List.mem_of_mem_take hx
    have hrun : rtaRun p.1 w d = rtaGo p.1 w (rtaInit p.1) := by
      unfold rtaRun
      rw [hread, if_neg (by simp)]
    rw [hrun] at hx
    have hx' : x ∈ (rtaLoop p.1 w (rtaStore p.1 w p.1.outName) (rtaPoints p.1 w).zipIdx
        (rtaInit p.1)).2.1 := by
      unfold rtaGo rtaFinish at hx
      split at hx
      · exact hx
      · split at hx
        · rw [hk] at hx
          simpa using hx
        · exact hx
    obtain ⟨sigma', hsig', gp, band, hn, -⟩ := loop_files p.1 w (rtaStore p.1 w p.1.outName) rfl rfl
      rfl (rtaPoints p.1 w).zipIdx (rtaInit p.1) rfl (by cases h : p.1.isNU <;> simp [rtaInit, h])
      (by
        intro h
        apply hpiece.isotope
        cases h' : p.1.isIsotope with
        | true => rfl
        | false => simp [rtaInit, h'] at h) x hx'
    rw [hpiece.sigmas] at hsig'
    rw [pieceName_congr kappaKind (r := rtaStore s w s.inName) hpiece.mesh hpiece.cutoff
      hpiece.name] at hn
    have hne : pieceName kappaKind (rtaStore s w s.inName) sigma none none ≠ x.1 := by
      intro h
      rw [hn] at h
      have := (pieceName_inj hr (List.mem_of_getElem? hj) hsig' h).1
      simp at this
    obtain ⟨f, hf, hg⟩ := hd' j sigma hj
    refine ⟨f, ?_, hg⟩
    show Disk.put d' x.1 x.2 _ = _
    unfold Disk.put
    rw [if_neg hne, hf]
  obtain ⟨v, hv, hsame⟩ := read_summaries hr hkeep
  have hwt : Whole { s with readGamma := true } := ⟨hs.points, hs.bands, hs.writeGamma⟩
  have ex : rtaRun { s with readGamma := true } w (rtaRuns w l d) =
      rtaGo { s with readGamma := true } w (rtaTake (rtaInit s) v) := by
    unfold rtaRun
    rw [if_pos rfl]
    show rtaAfterRead _ _ (setGammaFromFile (rtaStore s w s.inName) _) = _
    rw [hv]
    rfl
  rw [ex, whole_outcome _ hwt]
  obtain ⟨-, -, -, -, -, a6, -⟩ := loop_state { s with readGamma := true } w
    (rtaStore { s with readGamma := true } w s.outName) hs.writeGamma
    (rtaPoints { s with readGamma := true } w) (rtaPoints { s with readGamma := true } w).zipIdx
    (fun g hg => zipIdx_getElem? hg) (rtaTake (rtaInit s) v)
  refine ⟨_, rfl, ?_⟩
  show ∀ j < s.sigmas.length, ∀ t < s.temps.length, ∀ i < w.meshPoints.length, ∀ b < s.numBand,
    (rtaLoop _ _ _ _ _).1.widths.gamma j t i b = u.gamma j t i b
  rw [a6 rfl]
  intro j hj t ht i hi b hb
  exact (hsame j hj t ht i (by rw [store_points hs.points]; exact hi) b hb).1

/-- The files of a grid point are at least one. -/
theorem gammaPuts_ne (r : StoreArgs) (p : RtaSettings) (v : Linewidths K) (i gp : Nat)
    (hs : r.sigmas ≠ []) (hb : allBands p = true ∨ p.bands ≠ []) :
    gammaPuts r (allBands p) p.bands v i gp ≠ [] := by
  obtain ⟨sigma, hsig⟩ := List.exists_mem_of_ne_nil _ hs
  obtain ⟨h1, h2⟩ := gammaPuts_names r p v i gp hsig
  intro h
  rw [h] at h1 h2
  cases hall : allBands p with
  | true => simpa using h1 hall
  | false =>
    rcases hb with hb | hb
    · rw [hall] at hb; simp at hb
    · obtain ⟨b, hb⟩ := List.exists_mem_of_ne_nil _ hb
      simpa using h2 hall b hb

/-- Linewidths of a Green-Kubo calculation cannot be stored: with `write_gamma` it always ends with
an exception at its first grid point and leaves no file. -/
theorem C157_kubo (p : RtaSettings) (w : RtaWorld K) (hk : p.kind = .kubo) (hw : p.writeGamma = true)
    (hread : p.readGamma = false) (hs : p.sigmas ≠ []) (hb : allBands p = true ∨ p.bands ≠ [])
    (hp : rtaPoints p w ≠ []) (d : Disk (KappaFile K)) :
    rtaRun p w d = { puts := [], outcome := .raised } := by
  unfold rtaRun
  rw [hread, if_neg (by simp)]
  unfold rtaGo
  cases hpts : rtaPoints p w with
  | nil => exact absurd hpts hp
  | cons g l =>
    have he : ∀ st : RtaState K, pointEffect p (rtaStore p w p.outName) st 0 g =
        { puts := [], raised := true } := by
      intro st
      unfold pointEffect gammaEffect
      rw [if_pos hw, if_pos ⟨hk, gammaPuts_ne (rtaStore p w p.outName) p _ 0 g hs hb⟩]
    simp [List.zipIdx_cons, rtaLoop, he, rtaFinish]

/-- A calculation with isotope scattering and a selection of bands cannot store its linewidths
either, unless compression is switched off: it ends with an exception while the first file is
written. -/
theorem C157_isotope_bands (p : RtaSettings) (w : RtaWorld K) (hk : p.kind ≠ .kubo)
    (hiso : p.isIsotope = true) (hc : p.compress = true) (hall : allBands p = false)
    (hw : p.writeGamma = true) (hread : p.readGamma = false) (hs : p.sigmas ≠ [])
    (hb : p.bands ≠ []) (hp : rtaPoints p w ≠ []) (d : Disk (KappaFile K)) :
    (rtaRun p w d).outcome = .raised ∧ (rtaRun p w d).puts.length ≤ 1 := by
  unfold rtaRun
  rw [hread, if_neg (by simp)]
  unfold rtaGo
  cases hpts : rtaPoints p w with
  | nil => exact absurd hpts hp
  | cons g l =>
    have hi : (rtaPoint p w (rtaInit p) g 0).iso.isSome = true := by
      simp [rtaPoint, rtaInit, hiso]
    have he : (pointEffect p (rtaStore p w p.outName) (rtaPoint p w (rtaInit p) g 0) 0 g).raised =
        true ∧
        (pointEffect p (rtaStore p w p.outName) (rtaPoint p w (rtaInit p) g 0) 0 g).puts.length ≤
          1 := by
      unfold pointEffect gammaEffect
      rw [if_pos hw, if_neg (fun h => hk h.1),
        if_pos ⟨hall, hc, hi, gammaPuts_ne (rtaStore p w p.outName) p _ 0 g hs (.inr hb)⟩]
      exact ⟨rfl, by simp⟩
    simp [List.zipIdx_cons, rtaLoop, he.1, rtaFinish, he.2]

/-- A run at selected grid points or bands has no conductivity. -/
theorem C157_part_no_kappa (p : RtaSettings) (w : RtaWorld K) (d : Disk (KappaFile K))
    (h : p.points ≠ none ∨ allBands p = false) (x : RtaResult K)
    (hx : (rtaRun p w d).outcome = .result x) : x.kappa = none := by
  have hgo : ∀ st, (rtaGo p w st).outcome = .result x → x.kappa = none := by
    intro st hx
    have hneg : ¬ (p.points = none ∧ allBands p = true) := by
      rintro ⟨h1, h2⟩
      rcases h with h | h
      · exact h h1
      · rw [h2] at h; simp at h
    unfold rtaGo rtaFinish at hx
    split at hx
    · simp at hx
    · simp only [if_neg hneg, RtaOutcome.result.injEq] at hx
      rw [← hx]
  unfold rtaRun at hx
  split at hx
  · cases hr : setGammaFromFile (rtaStore p w p.inName) d with
    | none => rw [hr] at hx; simp [rtaAfterRead] at hx
    | some o =>
      rw [hr] at hx
      cases o with
      | none => simp [rtaAfterRead] at hx
      | some v => exact hgo _ hx
  · exact hgo _ hx

omit [Zero K] in
/-- Files of a run whose linewidths were read: at each position, what the arrays hold there. -/
theorem loop_read_puts (p : RtaSettings) (w : RtaWorld K) (r : StoreArgs) (hw : p.writeGamma = true)
    (hk : p.kind ≠ .kubo) (l : List (Nat × Nat)) (st : RtaState K) (hread : st.read = true)
    (hiso : st.iso = none) :
    ∀ g ∈ l, ∀ x ∈ gammaPuts r (allBands p) p.bands st.widths g.2 g.1,
      x ∈ (rtaLoop p w r l st).2.1 := by
  induction l generalizing st with
  | nil => intro g hg; simp at hg
  | cons g l ih =>
    obtain ⟨gp, i⟩ := g
    have hw1 : (rtaPoint p w st gp i).widths = st.widths := by simp [rtaPoint, hread]
    have hi1 : (rtaPoint p w st gp i).iso = none := by simp [rtaPoint, hiso]
    have he : pointEffect p r (rtaPoint p w st gp i) i gp =
        { puts := gammaPuts r (allBands p) p.bands (rtaPoint p w st gp i).widths i gp
          raised := false } := by
      unfold pointEffect
      rw [if_pos hw, gammaEffect_ok p r _ hk (by rw [hi1]; simp)]
    have hl : (rtaLoop p w r ((gp, i) :: l) st).2.1 =
        gammaPuts r (allBands p) p.bands (rtaPoint p w st gp i).widths i gp ++
          (rtaLoop p w r l (rtaPoint p w st gp i)).2.1 := by
      simp [rtaLoop, he]
    rw [hl]
    intro g hg x hx
    rcases List.mem_cons.1 hg with rfl | hg
    · rw [hw1]
      exact List.mem_append_left _ hx
    · refine List.mem_append_right _ (ih (rtaPoint p w st gp i) hread hi1 g hg x ?_)
      rw [hw1]
      exact hx

/-- A run with a selection of bands that reads linewidths and stores them again mixes up the bands:
the arrays read hold all bands, but are stored as if they held the selection, so that the file of
the `k`-th selected band `b` gets the linewidths of band `k`. -/
theorem C157_reread_bands (p : RtaSettings) (w : RtaWorld K) (d : Disk (KappaFile K))
    (v : Linewidths K) (hv : setGammaFromFile (rtaStore p w p.inName) d = some (some v))
    (hread : p.readGamma = true) (hw : p.writeGamma = true) (hk : p.kind ≠ .kubo)
    (hiso : p.isIsotope = false) (hall : allBands p = false) {i gp k b j : Nat} {sigma : Option ℚ}
    (hi : (rtaPoints p w)[i]? = some gp) (hb : p.bands[k]? = some b) (hj : p.sigmas[j]? = some sigma) :
    ∃ f, (pieceName kappaKind (rtaStore p w p.outName) sigma (some gp) (some b), f) ∈
        (rtaRun p w d).puts ∧ ∀ t, f.gamma.val [t] = v.gamma j t i k := by
  have hrun : rtaRun p w d = rtaGo p w (rtaTake (rtaInit p) v) := by
    unfold rtaRun
    rw [hread, if_pos rfl, hv]
    rfl
  have hz : (gp, i) ∈ (rtaPoints p w).zipIdx := List.mem_zipIdx_iff_getElem?.2 hi
  have hbz : (b, k) ∈ p.bands.zipIdx := List.mem_zipIdx_iff_getElem?.2 hb
  have hsz : (sigma, j) ∈ (rtaStore p w p.outName).sigmas.zipIdx :=
    List.mem_zipIdx_iff_getElem?.2 hj
  have hmem := loop_read_puts p w (rtaStore p w p.outName) hw hk (rtaPoints p w).zipIdx
    (rtaTake (rtaInit p) v) rfl (by simp [rtaTake, rtaInit, hiso]) (gp, i) hz
  refine ⟨{ gamma := bandSlice (rtaStore p w p.outName) v.gamma j i k
            gammaN := (rtaTake (rtaInit p) v).widths.nu.map fun q =>
              bandSlice (rtaStore p w p.outName) q.1 j i k
            gammaU := (rtaTake (rtaInit p) v).widths.nu.map fun q =>
              bandSlice (rtaStore p w p.outName) q.2 j i k }, ?_, fun t => rfl⟩
  have h1 := hmem (pieceName kappaKind (rtaStore p w p.outName) sigma (some gp) (some b),
    { gamma := bandSlice (rtaStore p w p.outName) v.gamma j i k
      gammaN := (rtaTake (rtaInit p) v).widths.nu.map fun q =>
        bandSlice (rtaStore p w p.outName) q.1 j i k
      gammaU := (rtaTake (rtaInit p) v).widths.nu.map fun q =>
        bandSlice (rtaStore p w p.outName) q.2 j i k })
    (by
      rw [hall]
      unfold gammaPuts
      rw [if_neg (by simp)]
      exact List.mem_flatMap.2 ⟨_, hsz, List.mem_map.2 ⟨_, hbz, rfl⟩⟩)
  rw [hrun]
  unfold rtaGo rtaFinish
  split
  · exact h1
  · split
    · exact List.mem_append_left _ h1
    · exact h1

/-- A run over a mesh with one grid point, at the temperatures `ts`. -/
def oneMesh (ts : List ℚ) : RtaSettings where
  mesh := (1, 1, 1)
  sigmas := [none]
  temps := ts
  bands := [0, 1]
  numBand := 2
  readGamma := true

/-- A run that stores its grid point, at the temperature `T`. -/
def onePiece (T : ℚ) : RtaSettings where
  mesh := (1, 1, 1)
  sigmas := [none]
  temps := [T]
  points := some [0]
  bands := [0, 1]
  numBand := 2
  writeGamma := true

/-- Not even the number of temperatures is checked: linewidths stored at a single temperature `T`
are taken for those at all temperatures of the run. -/
theorem C157_one_temperature (w : RtaWorld K) (hm : w.meshPoints = [0]) (T : ℚ) (ts : List ℚ) :
    ∃ x, (rtaRun (oneMesh ts) w (rtaRuns w [(onePiece T, 1)] fun _ => none)).outcome = .result x ∧
      ∀ t b, b < 2 → x.state.widths.gamma 0 t 0 b = w.gamma none T 0 b := by
  have hne : pieceName "kappa".toList (rtaStore (oneMesh []) w none) none none none ≠
      pieceName "kappa".toList (rtaStore (oneMesh []) w none) none (some 0) none := by
    have h : pieceName "kappa".toList exampleOnePoint none none none ≠
        pieceName "kappa".toList exampleOnePoint none (some 0) none := by
      decide +kernel
    exact h
  let f : KappaFile K :=
    { gamma := pointSlice (rtaStore (onePiece T) w none)
        (fillPoint (onePiece T) w.gamma 0 0 fun _ _ _ _ => 0) 0 0 }
  have hputs : (rtaRun (onePiece T) w fun _ => none).puts =
      [(pieceName "kappa".toList (rtaStore (oneMesh []) w none) none (some 0) none, f)] := rfl
  have hdisk : rtaRuns w [(onePiece T, 1)] (fun _ => none) = Disk.put (fun _ => none)
      (pieceName "kappa".toList (rtaStore (oneMesh []) w none) none (some 0) none) f := by
    show putAll (fun _ => none) ((rtaRun (onePiece T) w fun _ => none).puts.take 1) = _
    rw [hputs]
    rfl
  have hassign : ∃ a : List Nat → K, f.gamma.assign [ts.length, 2] = some a ∧
      ∀ t b, b < 2 → a [t, b] = w.gamma none T 0 b := by
    refine ⟨_, by
      unfold NdArr.assign
      rw [if_pos (by simp [f, pointSlice, rtaStore, onePiece, fitsRev])], ?_⟩
    intro t b hb
    have : b = 0 ∨ b = 1 := by omega
    rcases this with rfl | rfl <;> rfl
  obtain ⟨a, ha, hval⟩ := hassign
  have hstore : ∃ g, storePiece (rtaStore (oneMesh ts) w none) 0 (.point 0) f.gamma
      (fun _ _ _ _ => 0) = some g ∧ ∀ t b, b < 2 → g 0 t 0 b = w.gamma none T 0 b := by
    have h3 : f.gamma.assign ((Piece.point 0).dims (rtaStore (oneMesh ts) w none).numT
        (rtaStore (oneMesh ts) w none).gridPoints.length (rtaStore (oneMesh ts) w none).numBand) =
        some a := ha
    refine ⟨_, by unfold storePiece; rw [h3]; rfl, ?_⟩
    intro t b hb
    exact hval t b hb
  obtain ⟨g, hg, hgval⟩ := hstore
  have hget : setGammaFromFile (rtaStore (oneMesh ts) w none) (Disk.put (fun _ => none)
      (pieceName "kappa".toList (rtaStore (oneMesh []) w none) none (some 0) none) f) =
      some (some { gamma := g, nu := none }) := by
    unfold setGammaFromFile readSigmas
    have hz : (rtaStore (oneMesh ts) w none).sigmas.zipIdx = [(none, 0)] := rfl
    have hgz : (rtaStore (oneMesh ts) w none).gridPoints.zipIdx = [(0, 0)] := by
      show (Option.getD none w.meshPoints).zipIdx = _
      rw [hm]; rfl
    have h1 : Disk.put (fun _ => none)
        (pieceName "kappa".toList (rtaStore (oneMesh []) w none) none (some 0) none) f
        (pieceName "kappa".toList (rtaStore (oneMesh ts) w none) none none none) = none := by
      unfold Disk.put
      exact if_neg hne
    have h2 : Disk.put (fun _ => none)
        (pieceName "kappa".toList (rtaStore (oneMesh []) w none) none (some 0) none) f
        (pieceName "kappa".toList (rtaStore (oneMesh ts) w none) none (some 0) none) = some f := by
      unfold Disk.put
      exact if_pos rfl
    have h4 : f.gammaN = none := rfl
    simp only [hz, List.foldlM_cons, List.foldlM_nil, h1]
    unfold readPoints
    simp only [hgz, List.foldlM_cons, List.foldlM_nil, h2]
    unfold absorb
    rw [hg, h4]
    rfl
  have hwh : Whole (oneMesh ts) := ⟨rfl, rfl, rfl⟩
  have hrun : rtaRun (oneMesh ts) w (rtaRuns w [(onePiece T, 1)] fun _ => none) =
      rtaGo (oneMesh ts) w (rtaTake (rtaInit (oneMesh ts)) { gamma := g, nu := none }) := by
    unfold rtaRun
    have h : (oneMesh ts).readGamma = true := rfl
    rw [if_pos h, hdisk]
    show rtaAfterRead _ _ (setGammaFromFile (rtaStore (oneMesh ts) w none) _) = _
    rw [hget]
    rfl
  rw [hrun, whole_outcome _ hwh]
  obtain ⟨-, -, -, -, -, a6, -⟩ := loop_state (oneMesh ts) w
    (rtaStore (oneMesh ts) w (oneMesh ts).outName) rfl
    (rtaPoints (oneMesh ts) w) (rtaPoints (oneMesh ts) w).zipIdx
    (fun g hg => zipIdx_getElem? hg) (rtaTake (rtaInit (oneMesh ts)) { gamma := g, nu := none })
  refine ⟨_, rfl, ?_⟩
  intro t b hb
  show (rtaLoop _ _ _ _ _).1.widths.gamma 0 t 0 b = _
  rw [a6 rfl]
  exact hgval t b hb

/-! ### Examples -/

end

/-- A crystal with two irreducible grid points. -/
def exampleWorld : RtaWorld ℚ where
  meshPoints := [0, 7]
  gamma _ T gp b := T + 10 * gp + b + 1
  gammaN _ T gp b := T + gp + b
  gammaU _ _ gp _ := 9 * gp + 1
  iso _ gp b := gp + b
  kappa _ T _ g _ := [T / (g.map List.sum).sum]

/-- The conductivity wanted: two smearing settings, two temperatures. -/
def exampleWhole : RtaSettings where
  mesh := (3, 3, 3)
  sigmas := [none, some (1 / 10)]
  temps := [100, 300]
  bands := [0, 1]
  numBand := 2
  isNU := true
  writeKappa := true

/-- A run at the first grid point. -/
def examplePiece0 : RtaSettings := { exampleWhole with points := some [0], writeGamma := true }

/-- A run at the second grid point, for one band. -/
def examplePiece7 (b : Nat) : RtaSettings :=
  { exampleWhole with points := some [7], bands := [b], writeGamma := true }

theorem exampleWhole_whole : Whole exampleWhole := ⟨rfl, rfl, rfl⟩

theorem exampleWhole_separate (name : Option (List Char)) :
    Separate (rtaStore exampleWhole exampleWorld name) :=
  ⟨exampleStore_separate.sigma_nonneg, exampleStore_separate.cutoff_nonneg,
    exampleStore_separate.sigma_apart, exampleStore_separate.points⟩

/-- A run killed after its first file, the runs above, and the run at the first grid point again. -/
def exampleRuns : List (RtaSettings × Nat) :=
  [(examplePiece0, 1), (examplePiece7 1, 2), (examplePiece7 0, 2), (examplePiece0, 2)]

theorem exampleRuns_pieces (p : RtaSettings × Nat) (hp : p ∈ exampleRuns) :
    PieceOf exampleWhole exampleWorld exampleWhole.temps p.1 := by
  simp only [exampleRuns, List.mem_cons, List.not_mem_nil, or_false] at hp
  rcases hp with rfl | rfl | rfl | rfl <;>
    exact ⟨rfl, rfl, rfl, rfl, rfl, rfl, rfl, by intro h; simp [examplePiece0, examplePiece7, exampleWhole] at h,
      by intro _; decide, by intro h; simp [examplePiece0, examplePiece7, exampleWhole] at h⟩

theorem exampleRuns_done : AllDone exampleWorld exampleWhole.numBand exampleRuns := by
  intro gp hgp
  simp only [exampleWorld, List.mem_cons, List.not_mem_nil, or_false] at hgp
  rcases hgp with rfl | rfl
  · left
    refine ⟨(examplePiece0, 2), by simp [exampleRuns], by decide, rfl, by decide, rfl, ?_⟩
    intro d
    exact le_of_eq rfl
  · right
    intro b hb
    have : b = 0 ∨ b = 1 := by
      have : b < 2 := hb
      omega
    rcases this with rfl | rfl
    · exact ⟨(examplePiece7 0, 2), by simp [exampleRuns], by decide, rfl, by decide, rfl, by decide,
        fun d => le_of_eq rfl⟩
    · exact ⟨(examplePiece7 1, 2), by simp [exampleRuns], by decide, rfl, by decide, rfl, by decide,
        fun d => le_of_eq rfl⟩

example : ∃ x y,
    (rtaRun { exampleWhole with readGamma := true } exampleWorld
      (rtaRuns exampleWorld exampleRuns fun _ => none)).outcome = .result x ∧
    (rtaRun { exampleWhole with readGamma := false } exampleWorld
      (rtaRuns exampleWorld exampleRuns fun _ => none)).outcome = .result y ∧
    SameResult exampleWhole exampleWorld x y :=
  (C157_resume_partial exampleWhole_whole (exampleWhole_separate _) exampleRuns
    exampleRuns_pieces).1
    (C157_done rfl exampleRuns exampleRuns_pieces exampleRuns_done _)

/-- Pieces made at other temperatures. -/
def coldRuns : List (RtaSettings × Nat) :=
  exampleRuns.map fun p => ({ p.1 with temps := [10, 30] }, p.2)

theorem coldRuns_pieces (p : RtaSettings × Nat) (hp : p ∈ coldRuns) :
    PieceOf exampleWhole exampleWorld [10, 30] p.1 := by
  obtain ⟨q, hq, rfl⟩ := List.mem_map.1 hp
  have h := exampleRuns_pieces q hq
  exact ⟨h.mesh, h.cutoff, h.sigmas, rfl, h.numBand, h.isNU, h.name, h.isotope, h.one,
    fun hr => ⟨⟨(h.read hr).1.points, (h.read hr).1.bands, (h.read hr).1.writeGamma⟩, (h.read hr).2⟩⟩

theorem coldRuns_done : AllDone exampleWorld exampleWhole.numBand coldRuns := by
  intro gp hgp
  simp only [exampleWorld, List.mem_cons, List.not_mem_nil, or_false] at hgp
  rcases hgp with rfl | rfl
  · left
    refine ⟨({ examplePiece0 with temps := [10, 30] }, 2), by simp [coldRuns, exampleRuns], by decide,
      rfl, by decide, rfl, fun d => le_of_eq rfl⟩
  · right
    intro b hb
    have : b = 0 ∨ b = 1 := by
      have : b < 2 := hb
      omega
    rcases this with rfl | rfl
    · exact ⟨({ examplePiece7 0 with temps := [10, 30] }, 2), by simp [coldRuns, exampleRuns],
        by decide, rfl, by decide, rfl, by decide, fun d => le_of_eq rfl⟩
    · exact ⟨({ examplePiece7 1 with temps := [10, 30] }, 2), by simp [coldRuns, exampleRuns],
        by decide, rfl, by decide, rfl, by decide, fun d => le_of_eq rfl⟩

/-- At 300 K the run has the linewidth of 30 K. -/
example : ∃ x, (rtaRun { exampleWhole with readGamma := true } exampleWorld
      (rtaRuns exampleWorld coldRuns fun _ => none)).outcome = .result x ∧
    x.state.widths.gamma 0 1 0 0 = exampleWorld.gamma none 30 0 0 ∧
    exampleWorld.gamma none 30 0 0 ≠ exampleWorld.gamma none 300 0 0 := by
  obtain ⟨x, hx, h⟩ := C157_other_temperatures (ts := [10, 30]) exampleWhole_whole rfl (exampleWhole_separate _)
    coldRuns coldRuns_pieces coldRuns_done
  refine ⟨x, hx, (h 0 (by decide) 1 (by decide) 0 (by decide) 0 (by decide)).1, ?_⟩
  norm_num [exampleWorld]

example : rtaRun { examplePiece0 with kind := .kubo } exampleWorld (fun _ => none) =
    { puts := [], outcome := .raised } :=
  C157_kubo _ _ rfl rfl rfl (by decide) (.inl rfl) (by decide) _

example : (rtaRun { examplePiece7 1 with isIsotope := true } exampleWorld
    (fun _ => none)).outcome = .raised :=
  (C157_isotope_bands _ _ (by decide) rfl rfl rfl rfl rfl (by decide) (by decide) (by decide) _).1

/-- A summary with other linewidths, in the way of new files of grid points. -/
example (u : Linewidths ℚ) :
    ∃ x, (rtaRun { exampleWhole with readGamma := true } exampleWorld
      (rtaRuns exampleWorld [({ examplePiece0 with writeKappa := false }, 2)]
        (writeKappa (rtaStore exampleWhole exampleWorld none) u fun _ => none))).outcome =
          .result x ∧
      ∀ j < 2, ∀ t < 2, ∀ i < 2, ∀ b < 2, x.state.widths.gamma j t i b = u.gamma j t i b := by
  have hw : Written (rtaStore exampleWhole exampleWorld none) u
      (writeKappa (rtaStore exampleWhole exampleWorld none) u fun _ => none) :=
    Written.kappa (by decide) Written.empty
  have hh := C56_written (exampleWhole_separate none) hw
  refine C157_old_summary exampleWhole_whole (exampleWhole_separate _) u _ ?_ _ ?_
  · intro j sigma hj
    have hkey : keyName kappaKind (rtaStore exampleWhole exampleWorld none) j .all =
        some (pieceName kappaKind (rtaStore exampleWhole exampleWorld none) sigma none none) := by
      unfold keyName
      have : (rtaStore exampleWhole exampleWorld none).sigmas[j]? = some sigma := hj
      rw [this]; rfl
    have hsome : ((writeKappa (rtaStore exampleWhole exampleWorld none) u fun _ => none)
        (pieceName kappaKind (rtaStore exampleWhole exampleWorld none) sigma none none)).isSome := by
      unfold writeKappa
      refine foldl_reach (P := fun d : Disk (KappaFile ℚ) => (d (pieceName kappaKind
        (rtaStore exampleWhole exampleWorld none) sigma none none)).isSome) _ _ _ (sigma, j)
        (List.mem_zipIdx_iff_getElem?.2 hj) ?_ ?_
      · intro d
        show (Disk.put _ _ _ _).isSome
        unfold Disk.put
        have e : pieceName kappaKind (rtaStore exampleWhole exampleWorld none) sigma none none =
            pieceName "kappa".toList (rtaStore exampleWhole exampleWorld none) (sigma, j).1
              (summaryPoint (rtaStore exampleWhole exampleWorld none).gridPoints) none := rfl
        rw [if_pos e]; rfl
      · intro d y _ hd
        show (Disk.put _ _ _ _).isSome
        unfold Disk.put
        split
        · rfl
        · exact hd
    obtain ⟨f, hf⟩ := Option.isSome_iff_exists.1 hsome
    exact ⟨f, hf, hh j .all _ f hkey hf⟩
  · intro p hp
    simp only [List.mem_singleton] at hp
    subst hp
    refine ⟨⟨rfl, rfl, rfl, rfl, rfl, rfl, rfl, ?_, ?_, ?_⟩, rfl, rfl⟩
    · intro h; simp [examplePiece0, exampleWhole] at h
    · intro h; simp at h
    · intro h; simp [examplePiece0, exampleWhole] at h

end Phono3py.Props
