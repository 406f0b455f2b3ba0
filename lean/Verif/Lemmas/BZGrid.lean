/- Lemmas about the Brillouin-zone grid. -/
import Verif.Spec.BZGrid
import Verif.Lemmas.Grid
import Verif.Lemmas.Unimodular
import Verif.Lemmas.Transform

namespace Phono3py
open Spec

set_option linter.unusedSectionVars false

section
variable {K : Type _} [Field K] [LinearOrder K] [IsStrictOrderedRing K] [FloorRing K]

/-- The images kept for the grid address `gr`, in search order. -/
def bzImagesAt (b : BZInput K) (tol : K) (Qinv : M3) (gr : V3) : List V3 :=
  (bzSearchSpace.filter (fun s => decide (bzDistance b gr s < bzMinDistance b tol gr + tol))).map
    (fun s => setBzAddress s gr b.D (bzNint b gr) Qinv)

/-- The images kept for grid point `i`. -/
def bzImages (b : BZInput K) (tol : K) (Qinv : M3) (i : Nat) : List V3 :=
  bzImagesAt b tol Qinv (gridAddressFromIndex i b.D)

/-! ### the inner loops -/

theorem bz2Inner_fold (cond : V3 → Bool) (addr : V3 → V3) (i : Int) : ∀ (l : List V3) (st : BZ2State),
    let r := l.foldl (bz2Inner cond addr i) st
    let imgs := (l.filter cond).map addr
    r.num = st.num + imgs.length ∧ r.gpMap = st.gpMap ∧
    (∀ (j : Nat) (a : V3), imgs[j]? = some a → r.addresses (st.num + j) = a ∧ r.bzg2grg (st.num + j) = i) ∧
    (∀ k, k < st.num → r.addresses k = st.addresses k ∧ r.bzg2grg k = st.bzg2grg k) := by
  intro l
  induction l with
  | nil => intro st; simp
  | cons s l ih =>
    intro st
    simp only [List.foldl_cons]
    by_cases hc : cond s = true
    · obtain ⟨h1, h2, h3, h4⟩ := ih (bz2Inner cond addr i st s)
      simp only [bz2Inner, hc, if_true] at h1 h2 h3 h4 ⊢
      simp only [List.filter_cons, hc, if_true, List.map_cons, List.length_cons]
      refine ⟨by rw [h1]; push_cast; ring, h2, ?_, ?_⟩
      · intro j a hj
        cases j with
        | zero =>
          simp at hj
          have := h4 st.num (by omega)
          simpa [upd, hj] using this
        | succ j =>
          have := h3 j a (by simpa using hj)
          rw [show st.num + ((j + 1 : Nat) : Int) = st.num + 1 + j by push_cast; ring]
          exact this
      · intro k hk
        have := h4 k (by omega)
        simpa [upd, show k ≠ st.num by omega] using this
    · have e : bz2Inner cond addr i st s = st := by simp [bz2Inner, hc]
      rw [e]
      simp only [List.filter_cons, hc]
      exact ih st

theorem bz1Inner_fold_pos (D PS : V3) (hD : PosMesh D) (cond : V3 → Bool) (addr : V3 → V3) (i : Int) :
    ∀ (l : List V3) (st : BZ1State), 1 ≤ st.count →
    let r := l.foldl (bz1Inner D PS cond addr i) st
    let imgs := (l.filter cond).map addr
    r.count = st.count + imgs.length ∧ r.boundary = st.boundary + imgs.length ∧
    r.idShift = st.idShift ∧
    (∀ k, numBzMesh D ≤ k → r.gpMap k = st.gpMap k) ∧
    (∀ (j : Nat) (a : V3), imgs[j]? = some a → r.addresses (numGrid D + st.boundary + j) = a ∧
      r.bzg2grg (numGrid D + st.boundary + j) = i) ∧
    (∀ k, k < numGrid D + st.boundary → r.addresses k = st.addresses k ∧
      r.bzg2grg k = st.bzg2grg k) := by
  intro l
  induction l with
  | nil => intro st _; simp
  | cons s l ih =>
    intro st hcnt
    simp only [List.foldl_cons]
    by_cases hc : cond s = true
    · have hne : ¬ st.count = 0 := by omega
      obtain ⟨h1, h2, h2', h3, h4, h5⟩ := ih (bz1Inner D PS cond addr i st s) (by
        simp only [bz1Inner, hc, if_true]; omega)
      simp only [bz1Inner, hc, if_true, if_neg hne] at h1 h2 h2' h3 h4 h5 ⊢
      simp only [List.filter_cons, hc, if_true, List.map_cons, List.length_cons]
      refine ⟨by rw [h1]; push_cast; ring, by rw [h2]; push_cast; ring, h2', ?_, ?_, ?_⟩
      · intro k hk
        rw [h3 k hk]
        have hb : doubleGridIndex (doubleGridAddress (addr s) PS) ⟨D.x * 2, D.y * 2, D.z * 2⟩ PS
            < numBzMesh D :=
          (gridIndex_bounds (singleGridAddress (doubleGridAddress (addr s) PS) PS)
            ⟨D.x * 2, D.y * 2, D.z * 2⟩
            ⟨by have := hD.1; simp only; omega, by have := hD.2.1; simp only; omega,
              by have := hD.2.2; simp only; omega⟩).2
        simp [upd, show k ≠ _ from ne_of_gt (lt_of_lt_of_le hb hk)]
      · intro j a hj
        cases j with
        | zero =>
          simp at hj
          have := h5 (numGrid D + st.boundary) (by omega)
          have e : numGrid D + st.boundary = st.boundary + numGrid D := by ring
          simpa [upd, hj, e] using this
        | succ j =>
          have := h4 j a (by simpa using hj)
          rw [show numGrid D + st.boundary + ((j + 1 : Nat) : Int)
            = numGrid D + (st.boundary + 1) + j by push_cast; ring]
          exact this
      · intro k hk
        have := h5 k (by omega)
        simpa [upd, show k ≠ st.boundary + numGrid D by omega] using this
    · have e : bz1Inner D PS cond addr i st s = st := by simp [bz1Inner, hc]
      rw [e]
      simp only [List.filter_cons, hc]
      exact ih st hcnt

theorem bz1Inner_fold (D PS : V3) (hD : PosMesh D) (cond : V3 → Bool) (addr : V3 → V3) (i : Int)
    (hi : i < numGrid D) :
    ∀ (l : List V3) (st : BZ1State), st.count = 0 → 0 ≤ st.boundary →
    l.filter cond ≠ [] →
    let r := l.foldl (bz1Inner D PS cond addr i) st
    let imgs := (l.filter cond).map addr
    r.count = imgs.length ∧ r.boundary = st.boundary + (imgs.length - 1) ∧
    r.idShift = st.idShift ∧
    (∀ k, numBzMesh D ≤ k → r.gpMap k = st.gpMap k) ∧
    (∀ (a : V3), imgs[0]? = some a → r.addresses i = a ∧ r.bzg2grg i = i) ∧
    (∀ (j : Nat) (a : V3), imgs[j + 1]? = some a → r.addresses (numGrid D + st.boundary + j) = a ∧
      r.bzg2grg (numGrid D + st.boundary + j) = i) ∧
    (∀ k, k < numGrid D + st.boundary → k ≠ i → r.addresses k = st.addresses k ∧
      r.bzg2grg k = st.bzg2grg k) := by
  intro l
  induction l with
  | nil => intro st _ _ h; simp at h
  | cons s l ih =>
    intro st hcnt hb hne
    simp only [List.foldl_cons]
    by_cases hc : cond s = true
    · obtain ⟨h1, h2, h2', h3, h4, h5⟩ := bz1Inner_fold_pos D PS hD cond addr i l
        (bz1Inner D PS cond addr i st s) (by simp only [bz1Inner, hc, if_true]; omega)
      simp only [bz1Inner, hc, if_true, hcnt] at h1 h2 h2' h3 h4 h5 ⊢
      simp only [List.filter_cons, hc, if_true, List.map_cons, List.length_cons]
      refine ⟨by rw [h1]; push_cast; ring, by rw [h2]; push_cast; ring, h2', ?_, ?_, ?_, ?_⟩
      · intro k hk
        rw [h3 k hk]
        have hb : doubleGridIndex (doubleGridAddress (addr s) PS) ⟨D.x * 2, D.y * 2, D.z * 2⟩ PS
            < numBzMesh D :=
          (gridIndex_bounds (singleGridAddress (doubleGridAddress (addr s) PS) PS)
            ⟨D.x * 2, D.y * 2, D.z * 2⟩
            ⟨by have := hD.1; simp only; omega, by have := hD.2.1; simp only; omega,
              by have := hD.2.2; simp only; omega⟩).2
        simp [upd, show k ≠ _ from ne_of_gt (lt_of_lt_of_le hb hk)]
      · intro a ha
        simp at ha
        have := h5 i (by omega)
        simpa [upd, ha] using this
      · intro j a hj
        exact h4 j a (by simpa using hj)
      · intro k hk hki
        have := h5 k hk
        simpa [upd, hki] using this
    · have e : bz1Inner D PS cond addr i st s = st := by simp [bz1Inner, hc]
      rw [e]
      simp only [List.filter_cons, hc] at hne ⊢
      exact ih st hcnt hb hne

/-! ### prefix sums -/

/-- Number of images of the grid points before `i`. -/
def off2 (img : Nat → List V3) (i : Nat) : Int :=
  ((List.range i).map (fun k => ((img k).length : Int))).sum

/-- Number of surface copies of the grid points before `i`. -/
def off1 (img : Nat → List V3) (i : Nat) : Int :=
  ((List.range i).map (fun k => ((img k).length : Int) - 1)).sum

theorem off2_succ (img : Nat → List V3) (i : Nat) :
    off2 img (i + 1) = off2 img i + (img i).length := by
  simp [off2, List.range_succ]

theorem off1_succ (img : Nat → List V3) (i : Nat) :
    off1 img (i + 1) = off1 img i + ((img i).length - 1) := by
  simp [off1, List.range_succ]

theorem off2_mono (img : Nat → List V3) {i j : Nat} (h : i ≤ j) : off2 img i ≤ off2 img j := by
  induction j, h using Nat.le_induction with
  | base => exact le_rfl
  | succ n _ ih => rw [off2_succ]; omega

theorem off1_mono (img : Nat → List V3) (hne : ∀ k, img k ≠ []) {i j : Nat} (h : i ≤ j) :
    off1 img i ≤ off1 img j := by
  induction j, h using Nat.le_induction with
  | base => exact le_rfl
  | succ n _ ih =>
    rw [off1_succ]
    have := List.length_pos_of_ne_nil (hne n)
    omega

theorem off2_eq (img : Nat → List V3) (i : Nat) : off2 img i = off1 img i + i := by
  induction i with
  | zero => simp [off1, off2]
  | succ i ih => rw [off2_succ, off1_succ, ih]; push_cast; ring

/-! ### the outer loops -/

theorem bz2_fold (b : BZInput K) (tol : K) (Qinv : M3) (st : BZ2State) (hnum : st.num = 0)
    (hg : st.gpMap 0 = 0) : ∀ n : Nat,
    let r := (List.range n).foldl (bz2Outer b tol Qinv) st
    let img := bzImages b tol Qinv
    r.num = off2 img n ∧ (∀ k : Nat, k ≤ n → r.gpMap k = off2 img k) ∧
    ∀ k : Nat, k < n → ∀ (j : Nat) (a : V3), (img k)[j]? = some a →
      r.addresses (off2 img k + j) = a ∧ r.bzg2grg (off2 img k + j) = k := by
  intro n
  induction n with
  | zero =>
    refine ⟨by simpa [off2] using hnum, ?_, by simp⟩
    intro k hk
    have : k = 0 := by omega
    subst this
    simpa [off2] using hg
  | succ n ih =>
    obtain ⟨h1, h2, h3⟩ := ih
    simp only [List.range_succ, List.foldl_append, List.foldl_cons, List.foldl_nil]
    generalize (List.range n).foldl (bz2Outer b tol Qinv) st = r at *
    obtain ⟨i1, i2, i3, i4⟩ := bz2Inner_fold
      (fun s => decide (bzDistance b (gridAddressFromIndex n b.D) s
        < bzMinDistance b tol (gridAddressFromIndex n b.D) + tol))
      (fun s => setBzAddress s (gridAddressFromIndex n b.D) b.D
        (bzNint b (gridAddressFromIndex n b.D)) Qinv) n bzSearchSpace r
    have himg : ((bzSearchSpace.filter (fun s => decide (bzDistance b (gridAddressFromIndex n b.D) s
        < bzMinDistance b tol (gridAddressFromIndex n b.D) + tol))).map
      (fun s => setBzAddress s (gridAddressFromIndex n b.D) b.D
        (bzNint b (gridAddressFromIndex n b.D)) Qinv)) = bzImages b tol Qinv n := rfl
    rw [himg] at i1 i3
    unfold bz2Outer
    simp only
    generalize bzSearchSpace.foldl (bz2Inner (fun s => decide (bzDistance b (gridAddressFromIndex n b.D) s
        < bzMinDistance b tol (gridAddressFromIndex n b.D) + tol))
      (fun s => setBzAddress s (gridAddressFromIndex n b.D) b.D
        (bzNint b (gridAddressFromIndex n b.D)) Qinv) n) r = q at *
    refine ⟨by rw [i1, h1, off2_succ], ?_, ?_⟩
    · intro k hk
      by_cases hk' : k = n + 1
      · subst hk'
        simp only [upd]
        rw [if_pos (by push_cast; ring), i1, h1, off2_succ]
      · simp only [upd]
        rw [if_neg (by omega), i2]
        exact h2 k (by omega)
    · intro k hk j a hj
      by_cases hk' : k = n
      · subst hk'
        have := i3 j a hj
        rwa [h1] at this
      · have hlt : off2 (bzImages b tol Qinv) k + j < r.num := by
          rw [h1]
          have h5 := off2_mono (bzImages b tol Qinv) (show k + 1 ≤ n by omega)
          rw [off2_succ] at h5
          have : j < (bzImages b tol Qinv k).length := (List.getElem?_eq_some_iff.1 hj).1
          omega
        obtain ⟨e1, e2⟩ := i4 _ hlt
        rw [e1, e2]
        exact h3 k (by omega) j a hj

theorem bz1_fold (b : BZInput K) (hD : PosMesh b.D) (tol : K) (Qinv : M3) (st : BZ1State)
    (hnum : st.boundary = 0) (hid : st.idShift = 0) (hg : st.gpMap (numBzMesh b.D) = 0)
    (hne : ∀ k, bzImages b tol Qinv k ≠ []) : ∀ n : Nat, (n : Int) ≤ numGrid b.D →
    let r := (List.range n).foldl (bz1Outer b tol Qinv) st
    let img := bzImages b tol Qinv
    r.boundary = off1 img n ∧ r.idShift = off1 img n ∧
    (∀ k : Nat, k ≤ n → r.gpMap (numBzMesh b.D + k) = off1 img k) ∧
    (∀ k : Nat, k < n → ∀ (a : V3), (img k)[0]? = some a → r.addresses k = a ∧ r.bzg2grg k = k) ∧
    ∀ k : Nat, k < n → ∀ (j : Nat) (a : V3), (img k)[j + 1]? = some a →
      r.addresses (numGrid b.D + off1 img k + j) = a ∧
      r.bzg2grg (numGrid b.D + off1 img k + j) = k := by
  intro n
  induction n with
  | zero =>
    intro _
    refine ⟨by simpa [off1] using hnum, by simpa [off1] using hid, ?_, by simp, by simp⟩
    intro k hk
    have : k = 0 := by omega
    subst this
    simpa [off1] using hg
  | succ n ih =>
    intro hn
    obtain ⟨h1, h1', h2, h3, h4⟩ := ih (by push_cast at hn; omega)
    simp only [List.range_succ, List.foldl_append, List.foldl_cons, List.foldl_nil]
    generalize (List.range n).foldl (bz1Outer b tol Qinv) st = r at *
    have hoff : 0 ≤ off1 (bzImages b tol Qinv) n := by
      have := off1_mono (bzImages b tol Qinv) hne (Nat.zero_le n)
      simpa [off1] using this
    have hfl : bzSearchSpace.filter (fun s => decide (bzDistance b (gridAddressFromIndex n b.D) s
        < bzMinDistance b tol (gridAddressFromIndex n b.D) + tol)) ≠ [] := by
      intro h
      apply hne n
      simp [bzImages, bzImagesAt, h]
    obtain ⟨i0, i1, i1', i2, i3, i4, i5⟩ := bz1Inner_fold b.D b.PS hD
      (fun s => decide (bzDistance b (gridAddressFromIndex n b.D) s
        < bzMinDistance b tol (gridAddressFromIndex n b.D) + tol))
      (fun s => setBzAddress s (gridAddressFromIndex n b.D) b.D
        (bzNint b (gridAddressFromIndex n b.D)) Qinv) n (by push_cast at hn; omega) bzSearchSpace
      { r with count := 0 } rfl (by simp only [h1]; exact hoff) hfl
    have himg : ((bzSearchSpace.filter (fun s => decide (bzDistance b (gridAddressFromIndex n b.D) s
        < bzMinDistance b tol (gridAddressFromIndex n b.D) + tol))).map
      (fun s => setBzAddress s (gridAddressFromIndex n b.D) b.D
        (bzNint b (gridAddressFromIndex n b.D)) Qinv)) = bzImages b tol Qinv n := rfl
    rw [himg] at i0 i1 i3 i4
    unfold bz1Outer
    simp only
    generalize bzSearchSpace.foldl (bz1Inner b.D b.PS (fun s => decide (bzDistance b (gridAddressFromIndex n b.D) s
        < bzMinDistance b tol (gridAddressFromIndex n b.D) + tol))
      (fun s => setBzAddress s (gridAddressFromIndex n b.D) b.D
        (bzNint b (gridAddressFromIndex n b.D)) Qinv) n) { r with count := 0 } = q at *
    simp only at i1 i1' i2 i3 i4 i5
    have hlen := List.length_pos_of_ne_nil (hne n)
    refine ⟨by rw [i1, h1, off1_succ], by rw [i1', i0, h1', off1_succ], ?_, ?_, ?_⟩
    · intro k hk
      by_cases hk' : k = n + 1
      · subst hk'
        simp only [upd]
        rw [if_pos (by push_cast; ring), i1', i0, h1', off1_succ]
      · simp only [upd]
        rw [if_neg (by omega), i2 _ (by omega)]
        exact h2 k (by omega)
    · intro k hk a ha
      by_cases hk' : k = n
      · subst hk'; exact i3 a ha
      · obtain ⟨e1, e2⟩ := i5 k (by rw [h1]; push_cast at hn; omega) (by exact_mod_cast hk')
        rw [e1, e2]; exact h3 k (by omega) a ha
    · intro k hk j a hj
      by_cases hk' : k = n
      · subst hk'
        have := i4 j a hj
        rwa [h1] at this
      · have hlt : numGrid b.D + off1 (bzImages b tol Qinv) k + j < numGrid b.D + r.boundary := by
          rw [h1]
          have h5 := off1_mono (bzImages b tol Qinv) hne (show k + 1 ≤ n by omega)
          rw [off1_succ] at h5
          have : j + 1 < (bzImages b tol Qinv k).length := (List.getElem?_eq_some_iff.1 hj).1
          omega
        have hoffk : 0 ≤ off1 (bzImages b tol Qinv) k := by
          have := off1_mono (bzImages b tol Qinv) hne (Nat.zero_le k)
          simpa [off1] using this
        obtain ⟨e1, e2⟩ := i5 _ hlt (by push_cast at hn; omega)
        rw [e1, e2]
        exact h4 k (by omega) j a hj

/-! ### the selected images -/

theorem minDistance_fold (tol : K) (htol : 0 ≤ tol) : ∀ (ds : List K) (m : K),
    (ds.foldl (fun m d => if d < m - tol then d else m) m ≤ m) ∧
    (∀ d ∈ ds, ds.foldl (fun m d => if d < m - tol then d else m) m ≤ d + tol) ∧
    (ds.foldl (fun m d => if d < m - tol then d else m) m = m ∨
      ds.foldl (fun m d => if d < m - tol then d else m) m ∈ ds) := by
  intro ds
  induction ds with
  | nil => intro m; simp
  | cons d ds ih =>
    intro m
    simp only [List.foldl_cons]
    by_cases h : d < m - tol
    · rw [if_pos h]
      obtain ⟨h1, h2, h3⟩ := ih d
      refine ⟨by linarith, ?_, ?_⟩
      · intro e he
        simp only [List.mem_cons] at he
        rcases he with rfl | he
        · linarith
        · exact h2 e he
      · rcases h3 with h3 | h3
        · right; rw [h3]; simp
        · right; simp [h3]
    · rw [if_neg h]
      obtain ⟨h1, h2, h3⟩ := ih m
      refine ⟨h1, ?_, ?_⟩
      · intro e he
        simp only [List.mem_cons] at he
        rcases he with rfl | he
        · linarith
        · exact h2 e he
      · rcases h3 with h3 | h3
        · left; exact h3
        · right; simp [h3]

theorem minDistance_spec (tol : K) (htol : 0 ≤ tol) (ds : List K) (hne : ds ≠ []) :
    (∀ d ∈ ds, minDistance tol ds ≤ d + tol) ∧ minDistance tol ds ∈ ds := by
  cases ds with
  | nil => simp at hne
  | cons d ds =>
    obtain ⟨h1, h2, h3⟩ := minDistance_fold tol htol ds d
    have e0 : minDistance tol (d :: ds) = ds.foldl (fun m d => if d < m - tol then d else m) d := rfl
    rw [e0]
    refine ⟨?_, ?_⟩
    · intro e he
      simp only [List.mem_cons] at he
      rcases he with rfl | he
      · linarith
      · exact h2 e he
    · rcases h3 with h3 | h3
      · rw [h3]; simp
      · simp [h3]

theorem bzImagesAt_ne_nil (b : BZInput K) (tol : K) (htol : 0 < tol) (Qinv : M3) (gr : V3) :
    bzImagesAt b tol Qinv gr ≠ [] := by
  obtain ⟨_, h⟩ := minDistance_spec tol htol.le (bzSearchSpace.map (bzDistance b gr))
    (by rw [Ne, List.map_eq_nil_iff]; decide)
  obtain ⟨s, hs, e⟩ := List.mem_map.1 h
  unfold bzImagesAt
  rw [Ne, List.map_eq_nil_iff, List.filter_eq_nil_iff]
  intro hcon
  apply hcon s hs
  rw [decide_eq_true_eq]
  show bzDistance b gr s < bzMinDistance b tol gr + tol
  unfold bzMinDistance
  rw [← e]; linarith

theorem mem_bzImagesAt (b : BZInput K) (tol : K) (Qinv : M3) (gr a : V3) :
    a ∈ bzImagesAt b tol Qinv gr ↔ ∃ s ∈ bzSearchSpace,
      bzDistance b gr s < bzMinDistance b tol gr + tol ∧
      setBzAddress s gr b.D (bzNint b gr) Qinv = a := by
  unfold bzImagesAt
  simp only [List.mem_map, List.mem_filter, decide_eq_true_eq]
  constructor
  · rintro ⟨s, ⟨h1, h2⟩, h3⟩; exact ⟨s, h1, h2, h3⟩
  · rintro ⟨s, h1, h2, h3⟩; exact ⟨s, ⟨h1, h2⟩, h3⟩

theorem setBzAddress_samePoint (s gr D n : V3) (Qinv : M3) :
    SamePoint D (setBzAddress s gr D n Qinv) gr := by
  unfold SamePoint MeshTranslation setBzAddress
  simp only [V3.sub_x, V3.sub_y, V3.sub_z, V3.add_x, V3.add_y, V3.add_z, V3.mul_x, V3.mul_y,
    V3.mul_z]
  simp only [add_sub_cancel_left]
  exact ⟨Dvd.intro_left _ rfl, Dvd.intro_left _ rfl, Dvd.intro_left _ rfl⟩

theorem setBzAddress_inj (D gr n : V3) (Q Qinv : M3) (hD : PosMesh D) (hQ : Q.mul Qinv = M3.one)
    {s t : V3} (h : setBzAddress s gr D n Qinv = setBzAddress t gr D n Qinv) : s = t := by
  obtain ⟨d1, d2, d3⟩ := hD
  have h1 : Qinv.mulVec (s - n) = Qinv.mulVec (t - n) := by
    unfold setBzAddress at h
    have ex := congrArg V3.x h
    have ey := congrArg V3.y h
    have ez := congrArg V3.z h
    simp only [V3.add_x, V3.add_y, V3.add_z, V3.mul_x, V3.mul_y, V3.mul_z] at ex ey ez
    ext
    · exact mul_right_cancel₀ d1.ne' (by linarith)
    · exact mul_right_cancel₀ d2.ne' (by linarith)
    · exact mul_right_cancel₀ d3.ne' (by linarith)
  have h2 := congrArg Q.mulVec h1
  rw [← M3.mul_mulVec, ← M3.mul_mulVec, hQ] at h2
  have ex := congrArg V3.x h2
  have ey := congrArg V3.y h2
  have ez := congrArg V3.z h2
  simp [M3.mulVec, M3.one] at ex ey ez
  ext <;> omega

theorem bzSearchSpace_nodup : bzSearchSpace.Nodup := by decide +kernel

theorem bzImagesAt_nodup (b : BZInput K) (tol : K) (hD : PosMesh b.D) (Qinv : M3)
    (hQ : b.Q.mul Qinv = M3.one) (gr : V3) : (bzImagesAt b tol Qinv gr).Nodup := by
  unfold bzImagesAt
  exact (bzSearchSpace_nodup.filter _).map (fun s t h => setBzAddress_inj _ _ _ b.Q Qinv hD hQ h)

/-- The distance computed for a search vector is the squared length of the q-point of the
address that is stored for it. -/
theorem bzDistance_eq (b : BZInput K) (hD : PosMesh b.D) (Qinv : M3) (hQ : b.Q.mul Qinv = M3.one)
    (gr s : V3) :
    bzDistance b gr s = qNorm b (setBzAddress s gr b.D (bzNint b gr) Qinv) := by
  have key : ∀ i : Fin 3, qRed b gr i - ((bzNint b gr).e i : K) + (s.e i : K)
      = (b.Q.e i 0 : K) *
          ((((setBzAddress s gr b.D (bzNint b gr) Qinv).e 0 : Int) + (b.PS.e 0 : K) / 2) / (b.D.e 0 : K))
        + (b.Q.e i 1 : K) *
          ((((setBzAddress s gr b.D (bzNint b gr) Qinv).e 1 : Int) + (b.PS.e 1 : K) / 2) / (b.D.e 1 : K))
        + (b.Q.e i 2 : K) *
          ((((setBzAddress s gr b.D (bzNint b gr) Qinv).e 2 : Int) + (b.PS.e 2 : K) / 2) / (b.D.e 2 : K)) := by
    intro i
    generalize bzNint b gr = n
    have hd : ∀ j, (b.D.e j : K) ≠ 0 := fun j => by
      exact_mod_cast (V3.e_pos hD j).ne'
    have hda : ∀ j, (((doubleGridAddress gr b.PS).e j : Int) : K) / (2 * (b.D.e j : K))
        = ((gr.e j : K) + (b.PS.e j : K) / 2) / (b.D.e j : K) := by
      intro j
      have h2 : (2 : K) ≠ 0 := two_ne_zero
      have : (((doubleGridAddress gr b.PS).e j : Int) : K) = (gr.e j : K) * 2 + (b.PS.e j : K) := by
        fin_cases j <;> simp [doubleGridAddress, V3.e]
      rw [this]
      have := hd j
      field_simp
    have hset : ∀ j, (((setBzAddress s gr b.D n Qinv).e j : Int) + (b.PS.e j : K) / 2) / (b.D.e j : K)
        = ((gr.e j : K) + (b.PS.e j : K) / 2) / (b.D.e j : K) + ((Qinv.mulVec (s - n)).e j : K) := by
      intro j
      have : ((setBzAddress s gr b.D n Qinv).e j : Int)
          = gr.e j + (Qinv.mulVec (s - n)).e j * b.D.e j := by
        fin_cases j <;> simp [setBzAddress, V3.e]
      rw [this]
      have := hd j
      push_cast
      field_simp
      ring
    rw [hset 0, hset 1, hset 2]
    have hq : qRed b gr i = (b.Q.e i 0 : K) * (((gr.e 0 : K) + (b.PS.e 0 : K) / 2) / (b.D.e 0 : K))
      + (b.Q.e i 1 : K) * (((gr.e 1 : K) + (b.PS.e 1 : K) / 2) / (b.D.e 1 : K))
      + (b.Q.e i 2 : K) * (((gr.e 2 : K) + (b.PS.e 2 : K) / 2) / (b.D.e 2 : K)) := by
      unfold qRed mulVecD3
      simp only
      rw [hda 0, hda 1, hda 2]
    rw [hq]
    have hint : b.Q.e i 0 * (Qinv.mulVec (s - n)).e 0 + b.Q.e i 1 * (Qinv.mulVec (s - n)).e 1
        + b.Q.e i 2 * (Qinv.mulVec (s - n)).e 2 = s.e i - n.e i := by
      have h1 : (b.Q.mulVec (Qinv.mulVec (s - n))).e i = (s - n).e i := by
        rw [← M3.mul_mulVec, hQ]
        fin_cases i <;> simp [M3.mulVec, M3.one, V3.e]
      have h2 : (b.Q.mulVec (Qinv.mulVec (s - n))).e i
        = b.Q.e i 0 * (Qinv.mulVec (s - n)).e 0 + b.Q.e i 1 * (Qinv.mulVec (s - n)).e 1
        + b.Q.e i 2 * (Qinv.mulVec (s - n)).e 2 := by
        generalize Qinv.mulVec (s - n) = w
        fin_cases i <;> rfl
      rw [← h2, h1]
      fin_cases i <;> rfl
    have hint' : ((b.Q.e i 0 : K) * ((Qinv.mulVec (s - n)).e 0 : K)
        + (b.Q.e i 1 : K) * ((Qinv.mulVec (s - n)).e 1 : K)
        + (b.Q.e i 2 : K) * ((Qinv.mulVec (s - n)).e 2 : K)) = (s.e i : K) - (n.e i : K) := by
      exact_mod_cast congrArg (fun x : Int => (x : K)) hint
    linear_combination -hint'
  unfold bzDistance qNorm qCoord normSquared mulVecD3
  simp only
  rw [key 0, key 1, key 2]

/-- The tolerance is positive for every non-zero lattice. -/
theorem bzTolerance_pos (b : BZInput K) (hD : PosMesh b.D) (hQ : b.Q.det.natAbs = 1)
    (hl : ∃ i j, b.reclat i j ≠ 0) : 0 < bzTolerance b := by
  obtain ⟨i1, i2⟩ := M3.cofactorsDiv_mul b.Q hQ
  unfold bzTolerance
  simp only
  set rq : Fin 3 → Fin 3 → K := fun i j =>
    b.reclat i 0 * (b.Q.e 0 j : K) + b.reclat i 1 * (b.Q.e 1 j : K) + b.reclat i 2 * (b.Q.e 2 j : K)
    with hrq
  set len : Fin 3 → K := fun i =>
    (rq 0 i * rq 0 i + rq 1 i * rq 1 i + rq 2 i * rq 2 i) / ((b.D.e i : K) * (b.D.e i : K)) with hlen
  have hnn : ∀ i, 0 ≤ len i := fun i => div_nonneg
    (add_nonneg (add_nonneg (mul_self_nonneg _) (mul_self_nonneg _)) (mul_self_nonneg _))
    (mul_self_nonneg _)
  have hex : ∃ i, 0 < len i := by
    by_contra hcon
    push Not at hcon
    have hz : ∀ i k, rq k i = 0 := by
      intro i k
      have h0 : len i = 0 := le_antisymm (hcon i) (hnn i)
      have hdd : (b.D.e i : K) ≠ 0 := by exact_mod_cast (V3.e_pos hD i).ne'
      have hden : (b.D.e i : K) * (b.D.e i : K) ≠ 0 := mul_ne_zero hdd hdd
      rw [hlen] at h0
      simp only [div_eq_zero_iff, hden, or_false] at h0
      have e0 := mul_self_nonneg (rq 0 i)
      have e1 := mul_self_nonneg (rq 1 i)
      have e2 := mul_self_nonneg (rq 2 i)
      fin_cases k
      · exact mul_self_eq_zero.1 (by simp only [Fin.zero_eta]; linarith)
      · exact mul_self_eq_zero.1 (by simp only [Fin.mk_one]; linarith)
      · exact mul_self_eq_zero.1 (by simp only [Fin.reduceFinMk]; linarith)
    obtain ⟨i, j, hij⟩ := hl
    apply hij
    -- reclat = rq * Qinv
    have hcol : ∀ k l : Fin 3, (b.Q.mul (b.Q.cofactorsDiv b.Q.det)).e k l = M3.one.e k l := by
      intro k l; rw [i2]
    have hk : ∀ k l : Fin 3, (b.Q.e k 0 : K) * ((b.Q.cofactorsDiv b.Q.det).e 0 l : K)
        + (b.Q.e k 1 : K) * ((b.Q.cofactorsDiv b.Q.det).e 1 l : K)
        + (b.Q.e k 2 : K) * ((b.Q.cofactorsDiv b.Q.det).e 2 l : K) = (M3.one.e k l : K) := by
      intro k l
      have := hcol k l
      rw [M3.mul_e] at this
      exact_mod_cast congrArg (fun x : Int => (x : K)) this
    have hsum : b.reclat i j = rq i 0 * ((b.Q.cofactorsDiv b.Q.det).e 0 j : K)
        + rq i 1 * ((b.Q.cofactorsDiv b.Q.det).e 1 j : K)
        + rq i 2 * ((b.Q.cofactorsDiv b.Q.det).e 2 j : K) := by
      have h0 := hk 0 j
      have h1 := hk 1 j
      have h2 := hk 2 j
      have : b.reclat i j = b.reclat i 0 * (M3.one.e 0 j : K) + b.reclat i 1 * (M3.one.e 1 j : K)
          + b.reclat i 2 * (M3.one.e 2 j : K) := by
        fin_cases j <;> simp [M3.one, M3.e]
      rw [this, ← h0, ← h1, ← h2]
      simp only [hrq]
      ring
    rw [hsum, hz, hz, hz]; ring
  have hmax : ∀ i, len i ≤ (if (if len 0 < len 1 then len 1 else len 0) < len 2 then len 2
      else (if len 0 < len 1 then len 1 else len 0)) := by
    intro i
    fin_cases i <;> simp only [Fin.zero_eta, Fin.mk_one, Fin.reduceFinMk] <;> split_ifs <;> linarith
  obtain ⟨i, hi⟩ := hex
  have := hmax i
  have hpos := lt_of_lt_of_le hi this
  exact mul_pos hpos (by norm_num)

end

end Phono3py

namespace Phono3py
open Spec

section
variable {K : Type _} [Field K] [LinearOrder K] [IsStrictOrderedRing K] [FloorRing K]

theorem mem_interval {lo n : Int} {k : Int} (hn : 0 ≤ n) :
    k ∈ (List.range n.toNat).map (fun (j : Nat) => lo + j) ↔ lo ≤ k ∧ k < lo + n := by
  simp only [List.mem_map, List.mem_range]
  constructor
  · rintro ⟨j, hj, rfl⟩; omega
  · rintro ⟨h1, h2⟩; exact ⟨(k - lo).toNat, by omega, by omega⟩

theorem map_interval (f : Int → V3) (l : List V3) (lo : Int)
    (h : ∀ (j : Nat) (a : V3), l[j]? = some a → f (lo + j) = a) :
    ((List.range l.length).map (fun (j : Nat) => lo + j)).map f = l := by
  apply List.ext_getElem?
  intro j
  simp only [List.getElem?_map]
  by_cases hj : j < l.length
  · have e : l[j]? = some l[j] := List.getElem?_eq_getElem hj
    rw [e, List.getElem?_range hj]
    simp [h j _ e]
  · rw [List.getElem?_eq_none (by simpa using hj), List.getElem?_eq_none (by simpa using hj)]
    simp

/-- Everything the loops establish, for one of the layouts. -/
structure BZFacts (D : V3) (dense : Bool) (bz : BZGridOut) (img : Nat → List V3) : Prop where
  map_block : ∀ i : Nat, (i : Int) < numGrid D → (block D dense bz i).map bz.addresses = img i
  filed : ∀ i : Nat, (i : Int) < numGrid D → ∀ k ∈ block D dense bz i, bz.bzg2grg k = i
  cover : ∀ k, (0 ≤ k ∧ k < bz.size) ↔ ∃ i : Nat, (i : Int) < numGrid D ∧ k ∈ block D dense bz i
  size_eq : bz.size = off2 img (numGrid D).toNat
  dense_ptr : dense = true → ∀ i : Nat, (i : Int) ≤ numGrid D → bz.gpMap i = off2 img i
  sparse_ptr : dense = false → ∀ i : Nat, (i : Int) ≤ numGrid D →
    bz.gpMap (8 * numGrid D + i) = off1 img i

theorem off2_locate (img : Nat → List V3) (hne : ∀ k, img k ≠ []) (n : Nat) (k : Int)
    (h0 : 0 ≤ k) (h : k < off2 img n) :
    ∃ i, i < n ∧ off2 img i ≤ k ∧ k < off2 img (i + 1) := by
  induction n with
  | zero => simp [off2] at h; omega
  | succ n ih =>
    by_cases hk : k < off2 img n
    · obtain ⟨i, h1, h2, h3⟩ := ih hk
      exact ⟨i, by omega, h2, h3⟩
    · exact ⟨n, by omega, by omega, h⟩

theorem off1_locate (img : Nat → List V3) (n : Nat) (k : Int)
    (h0 : 0 ≤ k) (h : k < off1 img n) :
    ∃ i, i < n ∧ off1 img i ≤ k ∧ k < off1 img (i + 1) := by
  induction n with
  | zero => simp [off1] at h; omega
  | succ n ih =>
    by_cases hk : k < off1 img n
    · obtain ⟨i, h1, h2, h3⟩ := ih hk
      exact ⟨i, by omega, h2, h3⟩
    · exact ⟨n, by omega, by omega, h⟩

theorem numBzMesh_eq (D : V3) : numBzMesh D = 8 * numGrid D := by
  unfold numBzMesh numGrid; ring

theorem bzImages_ne_nil (b : BZInput K) (tol : K) (htol : 0 < tol) (Qinv : M3) (k : Nat) :
    bzImages b tol Qinv k ≠ [] := bzImagesAt_ne_nil b tol htol Qinv _

theorem bzGridType2_facts (b : BZInput K) (hD : PosMesh b.D) (tol : K) (htol : 0 < tol) (Qinv : M3)
    (init : BZGridOut) :
    BZFacts b.D true (bzGridType2 b tol Qinv init) (bzImages b tol Qinv) := by
  have hN := numGrid_pos b.D hD
  have hne := bzImages_ne_nil b tol htol Qinv
  obtain ⟨h1, h2, h3⟩ := bz2_fold b tol Qinv
    ⟨init.addresses, upd init.gpMap 0 0, init.bzg2grg, 0⟩ rfl (by simp [upd]) (numGrid b.D).toNat
  have hblk : ∀ i : Nat, (i : Int) < numGrid b.D →
      block b.D true (bzGridType2 b tol Qinv init) i
        = (List.range (bzImages b tol Qinv i).length).map
            (fun (j : Nat) => off2 (bzImages b tol Qinv) i + j) := by
    intro i hi
    have e1 := h2 i (by omega)
    have e2 := h2 (i + 1) (by omega)
    unfold block bzGridType2
    simp only [if_true]
    rw [e1, show ((i : Int) + 1) = ((i + 1 : Nat) : Int) by push_cast; ring, e2, off2_succ]
    congr 2
    omega
  have hgp : ∀ i : Nat, (i : Int) ≤ numGrid b.D →
      (bzGridType2 b tol Qinv init).gpMap i = off2 (bzImages b tol Qinv) i :=
    fun i hi => h2 i (by omega)
  have hmem : ∀ i : Nat, (i : Int) < numGrid b.D → ∀ k,
      k ∈ block b.D true (bzGridType2 b tol Qinv init) i ↔
      off2 (bzImages b tol Qinv) i ≤ k ∧ k < off2 (bzImages b tol Qinv) (i + 1) := by
    intro i hi k
    rw [hblk i hi, off2_succ]
    have := mem_interval (lo := off2 (bzImages b tol Qinv) i)
      (n := (bzImages b tol Qinv i).length) (k := k) (by omega)
    simpa using this
  refine ⟨?_, ?_, ?_, h1, fun _ => hgp, by simp⟩
  · intro i hi
    rw [hblk i hi]
    exact map_interval _ _ _ fun j a hj => (h3 i (by omega) j a hj).1
  · intro i hi k hk
    rw [hblk i hi] at hk
    simp only [List.mem_map, List.mem_range] at hk
    obtain ⟨j, hj, rfl⟩ := hk
    exact (h3 i (by omega) j _ (List.getElem?_eq_getElem hj)).2
  · intro k
    constructor
    · rintro ⟨hk0, hk⟩
      have hk' : k < off2 (bzImages b tol Qinv) (numGrid b.D).toNat := by
        rw [← h1]; exact hk
      obtain ⟨i, hi, hlo, hhi⟩ := off2_locate _ hne _ k hk0 hk'
      exact ⟨i, by omega, (hmem i (by omega) k).2 ⟨hlo, hhi⟩⟩
    · rintro ⟨i, hi, hk⟩
      obtain ⟨hlo, hhi⟩ := (hmem i hi k).1 hk
      have e0 := off2_mono (bzImages b tol Qinv) (Nat.zero_le i)
      have e1 := off2_mono (bzImages b tol Qinv) (show i + 1 ≤ (numGrid b.D).toNat by omega)
      have e2 : off2 (bzImages b tol Qinv) 0 = 0 := by simp [off2]
      refine ⟨by omega, ?_⟩
      show k < ((List.range (numGrid b.D).toNat).foldl (bz2Outer b tol Qinv) _).num
      rw [h1]; omega

theorem bzGridType1_facts (b : BZInput K) (hD : PosMesh b.D) (tol : K) (htol : 0 < tol) (Qinv : M3)
    (init : BZGridOut) :
    BZFacts b.D false (bzGridType1 b tol Qinv init) (bzImages b tol Qinv) := by
  have hN := numGrid_pos b.D hD
  have hne := bzImages_ne_nil b tol htol Qinv
  obtain ⟨h1, _, h2, h3, h4⟩ := bz1_fold b hD tol Qinv
    ⟨init.addresses, upd (fun k => if 0 ≤ k ∧ k < numBzMesh b.D then numBzMesh b.D
      else init.gpMap k) (numBzMesh b.D) 0, init.bzg2grg, 0, 0, 0⟩ rfl rfl (by simp [upd]) hne
      (numGrid b.D).toNat (by omega)
  have hgp : ∀ i : Nat, (i : Int) ≤ numGrid b.D →
      (bzGridType1 b tol Qinv init).gpMap (8 * numGrid b.D + i) = off1 (bzImages b tol Qinv) i := by
    intro i hi
    rw [← numBzMesh_eq]
    exact h2 i (by omega)
  have hblk : ∀ i : Nat, (i : Int) < numGrid b.D →
      block b.D false (bzGridType1 b tol Qinv init) i
        = (i : Int) :: (List.range ((bzImages b tol Qinv i).length - 1)).map
            (fun (j : Nat) => numGrid b.D + off1 (bzImages b tol Qinv) i + j) := by
    intro i hi
    have e1 := hgp i (by omega)
    have e2 := hgp (i + 1) (by push_cast; omega)
    unfold block
    simp only [Bool.false_eq_true, if_false]
    have hn : b.D.x * b.D.y * b.D.z = numGrid b.D := rfl
    rw [hn, e1, show 8 * numGrid b.D + (i : Int) + 1 = 8 * numGrid b.D + ((i + 1 : Nat) : Int) by
      push_cast; ring, e2, off1_succ]
    congr 3
    omega
  have hmem : ∀ i : Nat, (i : Int) < numGrid b.D → ∀ k,
      k ∈ block b.D false (bzGridType1 b tol Qinv init) i ↔ k = i ∨
      (numGrid b.D + off1 (bzImages b tol Qinv) i ≤ k ∧
        k < numGrid b.D + off1 (bzImages b tol Qinv) (i + 1)) := by
    intro i hi k
    have hl := List.length_pos_of_ne_nil (hne i)
    rw [hblk i hi, off1_succ, List.mem_cons]
    have := mem_interval (lo := numGrid b.D + off1 (bzImages b tol Qinv) i)
      (n := ((bzImages b tol Qinv i).length - 1 : Nat)) (k := k) (by omega)
    rw [Int.toNat_natCast] at this
    rw [this]
    have : (((bzImages b tol Qinv i).length - 1 : Nat) : Int)
      = ((bzImages b tol Qinv i).length : Int) - 1 := by omega
    rw [this, add_assoc]
  have hsize : (bzGridType1 b tol Qinv init).size
      = off1 (bzImages b tol Qinv) (numGrid b.D).toNat + numGrid b.D := by
    show ((List.range (numGrid b.D).toNat).foldl (bz1Outer b tol Qinv) _).boundary + _ = _
    rw [← h1]
  refine ⟨?_, ?_, ?_, ?_, by simp, fun _ => hgp⟩
  · intro i hi
    rw [hblk i hi]
    have hl := List.length_pos_of_ne_nil (hne i)
    cases himg : bzImages b tol Qinv i with
    | nil => exact absurd himg (hne i)
    | cons a l =>
      simp only [List.map_cons, List.length_cons, Nat.add_sub_cancel]
      congr 1
      · exact (h3 i (by omega) a (by rw [himg]; rfl)).1
      · exact map_interval _ _ _ fun j a hj => (h4 i (by omega) j a (by rw [himg]; simpa using hj)).1
  · intro i hi k hk
    rw [hblk i hi] at hk
    simp only [List.mem_cons, List.mem_map, List.mem_range] at hk
    have hl := List.length_pos_of_ne_nil (hne i)
    rcases hk with rfl | ⟨j, hj, rfl⟩
    · exact (h3 i (by omega) _ (List.getElem?_eq_getElem hl)).2
    · exact (h4 i (by omega) j _ (List.getElem?_eq_getElem (by omega))).2
  · intro k
    rw [hsize]
    have o0 : off1 (bzImages b tol Qinv) 0 = 0 := by simp [off1]
    constructor
    · rintro ⟨hk0, hk⟩
      by_cases hkN : k < numGrid b.D
      · refine ⟨k.toNat, by omega, ?_⟩
        rw [hmem k.toNat (by omega) k]
        left; omega
      · obtain ⟨i, hi, hlo, hhi⟩ := off1_locate (bzImages b tol Qinv) (numGrid b.D).toNat
          (k - numGrid b.D) (by omega) (by omega)
        exact ⟨i, by omega, (hmem i (by omega) k).2 (Or.inr ⟨by omega, by omega⟩)⟩
    · rintro ⟨i, hi, hk⟩
      have e2 := off1_mono (bzImages b tol Qinv) hne (Nat.zero_le (numGrid b.D).toNat)
      rcases (hmem i hi k).1 hk with rfl | ⟨hlo, hhi⟩
      · omega
      · have e0 := off1_mono (bzImages b tol Qinv) hne (Nat.zero_le i)
        have e1 := off1_mono (bzImages b tol Qinv) hne (show i + 1 ≤ (numGrid b.D).toNat by omega)
        omega
  · rw [hsize, off2_eq]; omega

theorem bzGrid_some (b : BZInput K) (dense : Bool) (init bz : BZGridOut)
    (h : bzGrid b dense init = some bz) : b.Q.det.natAbs = 1 ∧
    bz = if dense then bzGridType2 b (bzTolerance b) (b.Q.cofactorsDiv b.Q.det) init
      else bzGridType1 b (bzTolerance b) (b.Q.cofactorsDiv b.Q.det) init := by
  unfold bzGrid M3.inverseUnimodular at h
  by_cases hq : b.Q.det.natAbs = 1
  · simp only [hq, bne_self_eq_false, Bool.false_eq_true, if_false, Option.some.injEq] at h
    exact ⟨hq, h.symm⟩
  · have : (b.Q.det.natAbs != 1) = true := by simpa using hq
    simp [this] at h

theorem bzGrid_facts (b : BZInput K) (hD : PosMesh b.D) (hl : ∃ i j, b.reclat i j ≠ 0)
    (dense : Bool) (init bz : BZGridOut) (h : bzGrid b dense init = some bz) :
    BZFacts b.D dense bz (bzImages b (bzTolerance b) (b.Q.cofactorsDiv b.Q.det)) := by
  obtain ⟨hq, rfl⟩ := bzGrid_some b dense init bz h
  cases dense
  · exact bzGridType1_facts b hD _ (bzTolerance_pos b hD hq hl) _ init
  · exact bzGridType2_facts b hD _ (bzTolerance_pos b hD hq hl) _ init

end

end Phono3py

namespace Phono3py
open Spec

section
variable {K : Type _} [Field K] [LinearOrder K] [IsStrictOrderedRing K] [FloorRing K]

theorem bzTolerance_eq (b : BZInput K) : bzTolerance b = Spec.tolerance b := by
  unfold bzTolerance Spec.tolerance
  simp only
  rw [mul_one_div]
  congr 1
  simp only [max_def]
  split_ifs <;> first | rfl | (exfalso; linarith) | linarith

theorem qRed_eq (b : BZInput K) (gr : V3) : qRed b gr = qCoord b gr := by
  funext i
  unfold qRed qCoord mulVecD3
  have hda : ∀ j, (((doubleGridAddress gr b.PS).e j : Int) : K) / (2 * (b.D.e j : K))
      = ((gr.e j : K) + (b.PS.e j : K) / 2) / (b.D.e j : K) := by
    intro j
    have h2 : (2 : K) ≠ 0 := two_ne_zero
    have : (((doubleGridAddress gr b.PS).e j : Int) : K) = (gr.e j : K) * 2 + (b.PS.e j : K) := by
      fin_cases j <;> simp [doubleGridAddress, V3.e]
    rw [this, ← div_div]
    congr 1
    field_simp
  simp only
  rw [hda 0, hda 1, hda 2]

theorem qCoord_setBz (b : BZInput K) (hD : PosMesh b.D) (Qinv : M3) (hQ : b.Q.mul Qinv = M3.one)
    (gr s : V3) (i : Fin 3) :
    qCoord b (setBzAddress s gr b.D (bzNint b gr) Qinv) i
      = qCoord b gr i - (nint (qCoord b gr i) : K) + (s.e i : K) := by
  have hn : ∀ i, (bzNint b gr).e i = nint (qCoord b gr i) := by
    intro i; rw [← qRed_eq]; fin_cases i <;> rfl
  rw [← hn i]
  generalize bzNint b gr = n
  have hset : ∀ j, (((setBzAddress s gr b.D n Qinv).e j : Int) + (b.PS.e j : K) / 2) / (b.D.e j : K)
      = ((gr.e j : K) + (b.PS.e j : K) / 2) / (b.D.e j : K) + ((Qinv.mulVec (s - n)).e j : K) := by
    intro j
    have : ((setBzAddress s gr b.D n Qinv).e j : Int)
        = gr.e j + (Qinv.mulVec (s - n)).e j * b.D.e j := by
      fin_cases j <;> simp [setBzAddress, V3.e]
    rw [this]
    have hd : (b.D.e j : K) ≠ 0 := by exact_mod_cast (V3.e_pos hD j).ne'
    push_cast
    field_simp
    ring
  have hint : b.Q.e i 0 * (Qinv.mulVec (s - n)).e 0 + b.Q.e i 1 * (Qinv.mulVec (s - n)).e 1
      + b.Q.e i 2 * (Qinv.mulVec (s - n)).e 2 = s.e i - n.e i := by
    have h1 : (b.Q.mulVec (Qinv.mulVec (s - n))).e i = (s - n).e i := by
      rw [← M3.mul_mulVec, hQ]
      fin_cases i <;> simp [M3.mulVec, M3.one, V3.e]
    have h2 : (b.Q.mulVec (Qinv.mulVec (s - n))).e i
      = b.Q.e i 0 * (Qinv.mulVec (s - n)).e 0 + b.Q.e i 1 * (Qinv.mulVec (s - n)).e 1
      + b.Q.e i 2 * (Qinv.mulVec (s - n)).e 2 := by
      generalize Qinv.mulVec (s - n) = w
      fin_cases i <;> rfl
    rw [← h2, h1]
    fin_cases i <;> rfl
  have hint' : ((b.Q.e i 0 : K) * ((Qinv.mulVec (s - n)).e 0 : K)
      + (b.Q.e i 1 : K) * ((Qinv.mulVec (s - n)).e 1 : K)
      + (b.Q.e i 2 : K) * ((Qinv.mulVec (s - n)).e 2 : K)) = (s.e i : K) - (n.e i : K) := by
    exact_mod_cast congrArg (fun x : Int => (x : K)) hint
  unfold qCoord
  simp only
  rw [hset 0, hset 1, hset 2]
  linear_combination hint'

theorem qCoord_inj (b : BZInput K) (hD : PosMesh b.D) (Qinv : M3) (hQ : Qinv.mul b.Q = M3.one)
    {a c : V3} (h : ∀ i, qCoord b a i = qCoord b c i) : a = c := by
  have hk : ∀ k l : Fin 3, (Qinv.e k 0 : K) * (b.Q.e 0 l : K) + (Qinv.e k 1 : K) * (b.Q.e 1 l : K)
      + (Qinv.e k 2 : K) * (b.Q.e 2 l : K) = (M3.one.e k l : K) := by
    intro k l
    have : (Qinv.mul b.Q).e k l = M3.one.e k l := by rw [hQ]
    rw [M3.mul_e] at this
    exact_mod_cast congrArg (fun x : Int => (x : K)) this
  have hq : ∀ j, ((a.e j : K) + (b.PS.e j : K) / 2) / (b.D.e j : K)
      = ((c.e j : K) + (b.PS.e j : K) / 2) / (b.D.e j : K) := by
    intro j
    have hinv : ∀ v : V3, ((v.e j : K) + (b.PS.e j : K) / 2) / (b.D.e j : K)
        = (Qinv.e j 0 : K) * qCoord b v 0 + (Qinv.e j 1 : K) * qCoord b v 1
          + (Qinv.e j 2 : K) * qCoord b v 2 := by
      intro v
      unfold qCoord
      simp only
      have h0 := hk j 0
      have h1 := hk j 1
      have h2 := hk j 2
      set x0 := ((v.e 0 : K) + (b.PS.e 0 : K) / 2) / (b.D.e 0 : K) with hx0
      set x1 := ((v.e 1 : K) + (b.PS.e 1 : K) / 2) / (b.D.e 1 : K) with hx1
      set x2 := ((v.e 2 : K) + (b.PS.e 2 : K) / 2) / (b.D.e 2 : K) with hx2
      have hj : ((v.e j : K) + (b.PS.e j : K) / 2) / (b.D.e j : K)
          = (M3.one.e j 0 : K) * x0 + (M3.one.e j 1 : K) * x1 + (M3.one.e j 2 : K) * x2 := by
        fin_cases j <;> simp [M3.one, M3.e, hx0, hx1, hx2]
      rw [hj, ← h0, ← h1, ← h2]
      ring
    rw [hinv a, hinv c, h 0, h 1, h 2]
  have he : ∀ j, a.e j = c.e j := by
    intro j
    have hd : (b.D.e j : K) ≠ 0 := by exact_mod_cast (V3.e_pos hD j).ne'
    have := hq j
    rw [div_left_inj' hd] at this
    have : (a.e j : K) = (c.e j : K) := by linarith
    exact_mod_cast this
  ext
  · exact he 0
  · exact he 1
  · exact he 2

theorem mem_bzSearchSpace (s : V3) : s ∈ bzSearchSpace ↔
    ((-2 ≤ s.x ∧ s.x ≤ 2) ∧ (-2 ≤ s.y ∧ s.y ≤ 2) ∧ (-2 ≤ s.z ∧ s.z ≤ 2)) := by
  obtain ⟨x, y, z⟩ := s
  unfold bzSearchSpace
  simp only [List.mem_flatMap, List.mem_map, V3.mk.injEq]
  have hm : ∀ x : Int, x ∈ ([0, 1, 2, -2, -1] : List Int) ↔ -2 ≤ x ∧ x ≤ 2 := by
    intro x; simp only [List.mem_cons, List.not_mem_nil, or_false]; omega
  constructor
  · rintro ⟨a, ha, b, hb, c, hc, rfl, rfl, rfl⟩
    exact ⟨(hm _).1 ha, (hm _).1 hb, (hm _).1 hc⟩
  · rintro ⟨h1, h2, h3⟩
    exact ⟨x, (hm x).2 h1, y, (hm y).2 h2, z, (hm z).2 h3, rfl, rfl, rfl⟩

theorem searched_iff (b : BZInput K) (hD : PosMesh b.D) (hQ : b.Q.det.natAbs = 1) (gr t : V3) :
    Searched b gr t ↔ ∃ s ∈ bzSearchSpace,
      t = setBzAddress s gr b.D (bzNint b gr) (b.Q.cofactorsDiv b.Q.det) := by
  obtain ⟨i1, i2⟩ := M3.cofactorsDiv_mul b.Q hQ
  constructor
  · rintro ⟨s, hs, h⟩
    refine ⟨s, (mem_bzSearchSpace s).2 hs, ?_⟩
    refine qCoord_inj b hD _ i1 fun i => ?_
    rw [h i, qCoord_setBz b hD _ i2]
  · rintro ⟨s, hs, rfl⟩
    exact ⟨s, (mem_bzSearchSpace s).1 hs, fun i => qCoord_setBz b hD _ i2 gr s i⟩

/-- The kept images in terms of the specification. -/
theorem mem_bzImages_spec (b : BZInput K) (hD : PosMesh b.D) (hQ : b.Q.det.natAbs = 1)
    (hl : ∃ i j, b.reclat i j ≠ 0) (i : Nat) (a : V3)
    (ha : a ∈ bzImages b (bzTolerance b) (b.Q.cofactorsDiv b.Q.det) i) :
    Searched b (gridAddressFromIndex i b.D) a ∧
    ∀ t, Searched b (gridAddressFromIndex i b.D) t → qNorm b a < qNorm b t + 2 * Spec.tolerance b := by
  have htol := bzTolerance_pos b hD hQ hl
  obtain ⟨i1, i2⟩ := M3.cofactorsDiv_mul b.Q hQ
  rw [bzImages, mem_bzImagesAt] at ha
  obtain ⟨s, hs, hd, rfl⟩ := ha
  refine ⟨(searched_iff b hD hQ _ _).2 ⟨s, hs, rfl⟩, ?_⟩
  intro t ht
  obtain ⟨u, hu, rfl⟩ := (searched_iff b hD hQ _ _).1 ht
  rw [← bzDistance_eq b hD _ i2, ← bzDistance_eq b hD _ i2, ← bzTolerance_eq]
  have h1 := (minDistance_spec (bzTolerance b) htol.le
    (bzSearchSpace.map (bzDistance b (gridAddressFromIndex i b.D)))
    (by rw [Ne, List.map_eq_nil_iff]; decide)).1 _ (List.mem_map_of_mem hu)
  unfold bzMinDistance at hd
  linarith

theorem nearest_mem_bzImages (b : BZInput K) (hD : PosMesh b.D) (hQ : b.Q.det.natAbs = 1)
    (hl : ∃ i j, b.reclat i j ≠ 0) (i : Nat) (t : V3)
    (ht : Searched b (gridAddressFromIndex i b.D) t)
    (hmin : ∀ u, Searched b (gridAddressFromIndex i b.D) u → qNorm b t ≤ qNorm b u) :
    t ∈ bzImages b (bzTolerance b) (b.Q.cofactorsDiv b.Q.det) i := by
  have htol := bzTolerance_pos b hD hQ hl
  obtain ⟨i1, i2⟩ := M3.cofactorsDiv_mul b.Q hQ
  obtain ⟨s, hs, rfl⟩ := (searched_iff b hD hQ _ _).1 ht
  rw [bzImages, mem_bzImagesAt]
  refine ⟨s, hs, ?_, rfl⟩
  have h1 := (minDistance_spec (bzTolerance b) htol.le
    (bzSearchSpace.map (bzDistance b (gridAddressFromIndex i b.D)))
    (by rw [Ne, List.map_eq_nil_iff]; decide)).2
  obtain ⟨u, hu, he⟩ := List.mem_map.1 h1
  have h2 := hmin _ ((searched_iff b hD hQ _ _).2 ⟨u, hu, rfl⟩)
  rw [← bzDistance_eq b hD _ i2, ← bzDistance_eq b hD _ i2] at h2
  unfold bzMinDistance
  rw [← he]
  linarith

theorem bzImages_index (b : BZInput K) (hD : PosMesh b.D) (tol : K) (Qinv : M3) (i : Nat)
    (hi : (i : Int) < numGrid b.D) (a : V3) (ha : a ∈ bzImages b tol Qinv i) :
    SamePoint b.D a (gridAddressFromIndex i b.D) ∧ gridIndex a b.D = i := by
  rw [bzImages, mem_bzImagesAt] at ha
  obtain ⟨s, hs, hd, rfl⟩ := ha
  have h := setBzAddress_samePoint s (gridAddressFromIndex i b.D) b.D
    (bzNint b (gridAddressFromIndex i b.D)) Qinv
  refine ⟨h, ?_⟩
  rw [(gridIndex_eq_iff _ _ _ hD).2 h]
  exact gridIndex_addressFromIndex i b.D hD (by omega) hi

theorem BZFacts.mem_images {D : V3} {dense : Bool} {bz : BZGridOut} {img : Nat → List V3}
    (F : BZFacts D dense bz img) {i : Nat} (hi : (i : Int) < numGrid D) {k : Int}
    (hk : k ∈ block D dense bz i) : bz.addresses k ∈ img i := by
  rw [← F.map_block i hi]; exact List.mem_map_of_mem hk

theorem bzGrid_valid (b : BZInput K) (hD : PosMesh b.D) (hl : ∃ i j, b.reclat i j ≠ 0)
    (dense : Bool) (init bz : BZGridOut) (h : bzGrid b dense init = some bz) :
    ValidBZ b.D dense bz := by
  have F := bzGrid_facts b hD hl dense init bz h
  have hq := (bzGrid_some b dense init bz h).1
  obtain ⟨i1, i2⟩ := M3.cofactorsDiv_mul b.Q hq
  have hfiled : ∀ i, 0 ≤ i → i < numGrid b.D → ∀ k ∈ block b.D dense bz i,
    (0 ≤ k ∧ k < bz.size) ∧ bz.bzg2grg k = i ∧ gridIndex (bz.addresses k) b.D = i := by
    intro i hi0 hi k hk
    obtain ⟨n, rfl⟩ := Int.eq_ofNat_of_zero_le hi0
    exact ⟨(F.cover k).2 ⟨n, hi, hk⟩, F.filed n hi k hk,
      (bzImages_index b hD _ _ n hi _ (F.mem_images hi hk)).2⟩
  refine ⟨?_, hfiled, ?_, ?_⟩
  · intro k h0 h1
    obtain ⟨i, hi, hk⟩ := (F.cover k).1 ⟨h0, h1⟩
    exact ⟨i, by omega, hi, hk⟩
  · intro i hi0 hi hcon
    obtain ⟨n, rfl⟩ := Int.eq_ofNat_of_zero_le hi0
    have := F.map_block n hi
    rw [hcon] at this
    exact bzImages_ne_nil b _ (bzTolerance_pos b hD hq hl) _ n this.symm
  · intro k l hk hl' e
    obtain ⟨i, hi, hki⟩ := (F.cover k).1 hk
    obtain ⟨j, hj, hlj⟩ := (F.cover l).1 hl'
    have e1 := (hfiled i (by omega) hi k hki).2.2
    have e2 := (hfiled j (by omega) hj l hlj).2.2
    rw [e, e2] at e1
    have hij : j = i := by exact_mod_cast e1
    subst hij
    have hnd := bzImagesAt_nodup b (bzTolerance b) hD _ i2 (gridAddressFromIndex j b.D)
    rw [show bzImagesAt b (bzTolerance b) (b.Q.cofactorsDiv b.Q.det) (gridAddressFromIndex j b.D)
      = bzImages b (bzTolerance b) (b.Q.cofactorsDiv b.Q.det) j from rfl, ← F.map_block j hj] at hnd
    exact List.inj_on_of_nodup_map hnd hki hlj e

/-! ### rotation -/

theorem findAddress_some {f : Int → V3} {a : V3} {lo hi r : Int}
    (h : findAddress f a lo hi = some r) : lo ≤ r ∧ r < hi ∧ f r = a := by
  unfold findAddress at h
  have h1 := List.find?_some h
  have h2 := List.mem_of_find?_eq_some h
  simp only [List.mem_map, List.mem_range] at h2
  obtain ⟨j, hj, rfl⟩ := h2
  exact ⟨by omega, by omega, by simpa using h1⟩

theorem findAddress_none {f : Int → V3} {a : V3} {lo hi : Int}
    (h : findAddress f a lo hi = none) (k : Int) (h1 : lo ≤ k) (h2 : k < hi) : f k ≠ a := by
  unfold findAddress at h
  rw [List.find?_eq_none] at h
  have := h k (by
    simp only [List.mem_map, List.mem_range]
    exact ⟨(k - lo).toNat, by omega, by omega⟩)
  simpa using this

theorem rotatedBzAddress_eq (bz : BZGridOut) (PS : V3) (idx : Int) (R : M3) (a : V3)
    (h : V3.smul 2 a + PS = R.mulVec (V3.smul 2 (bz.addresses idx) + PS)) :
    rotatedBzAddress bz PS idx R = a := by
  unfold rotatedBzAddress
  have e : doubleGridAddress (bz.addresses idx) PS = V3.smul 2 (bz.addresses idx) + PS := by
    ext <;> simp [doubleGridAddress, V3.smul, mul_comm]
  rw [e, ← h]
  ext <;> simp [singleGridAddress, V3.smul]

end

end Phono3py
