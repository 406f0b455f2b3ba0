/- Lemmas about the lookup of triplets from grid points. -/
import Verif.Model.Collision
import Verif.Lemmas.Triplet
import Verif.Lemmas.Writes

namespace Phono3py
open Spec

/-- Number of representatives below `g`. -/
def rank (T : Int → Int) (g : Nat) : Nat := (irQ1 g T).length

theorem irQ1_succ (n : Nat) (T : Int → Int) :
    irQ1 (n + 1) T = irQ1 n T ++ if T n = n then [n] else [] := by
  unfold irQ1
  rw [List.range_succ, List.filter_append, List.filter_singleton]
  by_cases h : T n = n <;> simp [h]

theorem rank_succ (n : Nat) (T : Int → Int) :
    rank T (n + 1) = rank T n + if T n = n then 1 else 0 := by
  unfold rank
  rw [irQ1_succ, List.length_append]
  split_ifs <;> simp

theorem irQ1_rank {n g : Nat} {T : Int → Int} (hg : g < n) (h : T g = g) :
    (irQ1 n T)[rank T g]? = some g := by
  induction n with
  | zero => omega
  | succ n ih =>
    rw [irQ1_succ]
    by_cases hgn : g = n
    · subst hgn
      rw [if_pos h]
      exact List.getElem?_concat_length
    · have h' := ih (by omega)
      rw [List.getElem?_append_left (List.getElem?_eq_some_iff.1 h').1]
      exact h'

theorem gp2tp_fold (mem T : Int → Int) (n : Nat) :
    let st := (List.range n).foldl (gp2tpStep T) (mem, 0)
    st.2 = rank T n ∧ ∀ g : Nat, g < n → st.1 g = if T g = g then (rank T g : Int) else -1 := by
  induction n with
  | zero => exact ⟨rfl, fun g hg => by omega⟩
  | succ n ih =>
    intro st
    obtain ⟨h1, h2⟩ := ih
    have e : st = gp2tpStep T ((List.range n).foldl (gp2tpStep T) (mem, 0)) n := by
      simp only [st, List.range_succ, List.foldl_append, List.foldl_cons, List.foldl_nil]
    rw [e]
    clear e
    clear st
    revert h1 h2
    generalize (List.range n).foldl (gp2tpStep T) (mem, 0) = st
    intro h1 h2
    unfold gp2tpStep
    rw [rank_succ]
    split_ifs with hT
    · refine ⟨by rw [h1]; push_cast; rfl, fun g hg => ?_⟩
      by_cases hgn : g = n
      · subst hgn
        rw [if_pos hT]
        change upd _ _ _ _ = _
        rw [upd_same, h1]
      · change upd _ _ _ _ = _
        rw [upd_other _ _ (by omega)]
        exact h2 g (by omega)
    · refine ⟨by rw [h1]; simp, fun g hg => ?_⟩
      by_cases hgn : g = n
      · subst hgn
        rw [if_neg hT]
        change upd _ _ _ _ = _
        rw [upd_same]
      · change upd _ _ _ _ = _
        rw [upd_other _ _ (by omega)]
        exact h2 g (by omega)

theorem createGp2tpMap_eq (mem T : Int → Int) {n g : Nat} (hg : g < n) :
    createGp2tpMap mem T n g = if T g = g then (rank T g : Int) else -1 :=
  (gp2tp_fold mem T n).2 g hg

/-- What the Python loop needs from the maps and the triplets. -/
structure LookupInput (n : Nat) (tri : Int → Fin 3 → Int) (T Q G : Int → Int) : Prop where
  Q_bounds : ∀ g : Nat, g < n → 0 ≤ Q g ∧ Q g ≤ g
  T_bounds : ∀ g : Nat, g < n → 0 ≤ T g ∧ T g ≤ g
  Q_idem : ∀ g : Nat, g < n → Q (Q g) = Q g
  T_idem : ∀ g : Nat, g < n → T (T g) = T g
  T_Q : ∀ g : Nat, g < n → T (Q g) = T g
  second : ∀ g : Nat, g < n → T g = g → Q g = g ∧ G (tri (rank T g : Nat) 1) = g
  third : ∀ g : Nat, g < n → Q g = g → T g ≠ g → Q (G (tri (rank T (T g).toNat : Nat) 2)) = g

theorem pyGp2tp_fold {n : Nat} {tri : Int → Fin 3 → Int} {T Q G : Int → Int}
    (h : LookupInput n tri T Q G) (m : Nat) (hm : m ≤ n) :
    ∃ st, (List.range m).foldlM (pyGp2tpStep tri T Q G)
        ⟨fun _ => -1, fun _ => -1, fun _ => false, 0⟩ = some st ∧ st.num = rank T m ∧
      (∀ g : Nat, m ≤ g → st.swapped g = false) ∧
      ∀ g : Nat, g < m → st.gp2tp g = (rank T (T g).toNat : Nat) ∧
        st.tp2s g = (inverseSinhPoint (tri (rank T (T g).toNat : Nat)) T Q g).1 ∧
        st.swapped g = (inverseSinhPoint (tri (rank T (T g).toNat : Nat)) T Q g).2 := by
  induction m with
  | zero => exact ⟨_, rfl, rfl, fun _ _ => rfl, fun g hg => by omega⟩
  | succ m ih =>
    obtain ⟨st, e1, e2, e5, e3⟩ := ih (by omega)
    rw [List.range_succ, List.foldlM_append, e1]
    simp only [Option.bind_eq_bind, Option.bind_some, List.foldlM_cons, List.foldlM_nil]
    have hQ := h.Q_bounds m (by omega)
    have hT := h.T_bounds m (by omega)
    unfold pyGp2tpStep
    by_cases c1 : Q m = m
    · rw [if_pos c1]
      by_cases c2 : T m = m
      · rw [if_pos c2.symm]
        have hs := (h.second m (by omega) c2).2
        rw [e2, if_pos hs]
        refine ⟨_, rfl, ?_, fun g hg => e5 g (by omega), fun g hg => ?_⟩
        · rw [rank_succ, if_pos c2]; push_cast; rfl
        · by_cases hgm : g = m
          · subst hgm
            have hn : (T g).toNat = g := by omega
            simp only [upd_same]
            rw [hn]
            unfold inverseSinhPoint
            rw [if_pos (by rw [c1, c2])]
            exact ⟨rfl, rfl, e5 g le_rfl⟩
          · simp only [upd_other _ _ (show (g : Int) ≠ (m : Int) by omega)]
            exact e3 g (by omega)
      · rw [if_neg (fun e => c2 e.symm)]
        have hlt : (T m).toNat < m := by omega
        have hTn : ((T m).toNat : Int) = T m := by omega
        have h3 := e3 _ hlt
        rw [hTn, h.T_idem m (by omega)] at h3
        simp only [upd_same, h3.1]
        have ht := h.third m (by omega) c1 c2
        rw [if_pos ht]
        refine ⟨_, rfl, ?_, fun g hg => ?_, fun g hg => ?_⟩
        · rw [rank_succ, if_neg c2]; simpa using e2
        · simp only [upd_other _ _ (show (g : Int) ≠ (m : Int) by omega)]
          exact e5 g (by omega)
        · by_cases hgm : g = m
          · subst hgm
            simp only [upd_same]
            unfold inverseSinhPoint
            rw [if_neg (by rw [c1]; exact c2)]
            exact ⟨trivial, rfl, rfl⟩
          · simp only [upd_other _ _ (show (g : Int) ≠ (m : Int) by omega)]
            exact e3 g (by omega)
    · rw [if_neg c1]
      have hlt : (Q m).toNat < m := by omega
      have hQn : ((Q m).toNat : Int) = Q m := by omega
      have h3 := e3 _ hlt
      rw [hQn, h.T_Q m (by omega)] at h3
      refine ⟨_, rfl, ?_, fun g hg => ?_, fun g hg => ?_⟩
      · have : T m ≠ m := fun e => c1 (h.second m (by omega) e).1
        rw [rank_succ, if_neg this]; simpa using e2
      · simp only [upd_other _ _ (show (g : Int) ≠ (m : Int) by omega)]
        exact e5 g (by omega)
      · by_cases hgm : g = m
        · subst hgm
          simp only [upd_same]
          refine ⟨h3.1, ?_, ?_⟩
          · rw [h3.2.1]
            unfold inverseSinhPoint
            rw [h.T_Q g (by omega), h.Q_idem g (by omega)]
          · rw [h3.2.2]
            unfold inverseSinhPoint
            rw [h.T_Q g (by omega), h.Q_idem g (by omega)]
        · simp only [upd_other _ _ (show (g : Int) ≠ (m : Int) by omega)]
          exact e3 g (by omega)

end Phono3py
