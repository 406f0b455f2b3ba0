/- Loops whose rounds read and write disjoint sets of cells. -/
import Verif.Lemmas.Writes

namespace Phono3py

section
variable {α τ : Type _}

/-- A round `t` of a loop reads and writes only the cells `F t`. -/
structure Footprint (step : (Int → α) → τ → Int → α) (F : τ → Int → Prop) : Prop where
  out : ∀ a t p, ¬ F t p → step a t p = a p
  read : ∀ a a' t, (∀ p, F t p → a p = a' p) → ∀ p, F t p → step a t p = step a' t p

/-- No cell is used by two rounds of the list. -/
def Apart (F : τ → Int → Prop) (ts : List τ) : Prop :=
  ts.Pairwise fun t u => ∀ p, F t p → ¬ F u p

theorem foldl_untouched {step : (Int → α) → τ → Int → α} {F : τ → Int → Prop}
    (h : Footprint step F) (ts : List τ) (a : Int → α) (p : Int) (hp : ∀ t ∈ ts, ¬ F t p) :
    ts.foldl step a p = a p := by
  induction ts generalizing a with
  | nil => rfl
  | cons t ts ih =>
    rw [List.foldl_cons, ih _ (fun u hu => hp u (List.mem_cons_of_mem _ hu)),
      h.out _ _ _ (hp t (List.mem_cons_self ..))]

theorem foldl_block {step : (Int → α) → τ → Int → α} {F : τ → Int → Prop}
    (h : Footprint step F) (ts : List τ) (hd : Apart F ts) (a : Int → α) {t : τ} (ht : t ∈ ts)
    {p : Int} (hp : F t p) : ts.foldl step a p = step a t p := by
  induction ts generalizing a with
  | nil => cases ht
  | cons u ts ih =>
    obtain ⟨h1, h2⟩ := List.pairwise_cons.1 hd
    rw [List.foldl_cons]
    rcases List.mem_cons.1 ht with rfl | ht'
    · exact foldl_untouched h ts _ p (fun v hv hf => h1 v hv p hp hf)
    · rw [ih h2 _ ht']
      refine h.read _ _ t (fun q hq => h.out _ _ _ (fun hf => h1 t ht' q hf hq)) p hp

/-- The rounds can run in any order. -/
theorem foldl_blocks_perm {step : (Int → α) → τ → Int → α} {F : τ → Int → Prop}
    (h : Footprint step F) {ts us : List τ} (hp : ts.Perm us) (hd : Apart F ts) (a : Int → α) :
    ts.foldl step a = us.foldl step a := by
  have hd' : Apart F us :=
    (hp.pairwise_iff (fun {t u} hh p hu ht => hh p ht hu)).1 hd
  funext p
  by_cases hm : ∃ t ∈ ts, F t p
  · obtain ⟨t, ht, hf⟩ := hm
    rw [foldl_block h ts hd a ht hf, foldl_block h us hd' a (hp.mem_iff.1 ht) hf]
  · push Not at hm
    rw [foldl_untouched h ts a p hm,
      foldl_untouched h us a p (fun t ht => hm t (hp.mem_iff.2 ht))]

theorem apart_of_nodup {F : τ → Int → Prop} {ts : List τ} (hn : ts.Nodup)
    (h : ∀ t ∈ ts, ∀ u ∈ ts, ∀ p, F t p → F u p → t = u) : Apart F ts := by
  refine hn.pairwise_of_forall_ne ?_
  intro t ht u hu hne p hp hq
  exact hne (h t ht u hu p hp hq)

end
end Phono3py
