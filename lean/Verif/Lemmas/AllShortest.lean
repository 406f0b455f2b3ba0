/- Triples of atoms nearest to each other, and sums over them. -/
import Verif.Spec.AllShortest
import Verif.Model.AllShortest
import Verif.Lemmas.Strength
import Mathlib.Tactic.Abel
import Mathlib.Tactic.LinearCombination
import Mathlib.Algebra.Module.Pi

set_option linter.unusedSectionVars false

namespace Phono3py
open Spec

section
variable {K : Type} [Field K] [LinearOrder K] [IsStrictOrderedRing K]

/-! ### Geometry -/

variable {g : Geometry K} {tol : K}

theorem joins_neg {a b : Nat} {v : Fin 3 → K} (h : g.Joins a b v) : g.Joins b a (-v) := by
  unfold Geometry.Joins at *
  have := g.lattice.neg_mem h
  convert this using 1
  abel

theorem nearest_neg (hl : ∀ v, g.length (-v) = g.length v) {a b : Nat} {v : Fin 3 → K}
    (h : g.Nearest tol a b v) : g.Nearest tol b a (-v) := by
  refine ⟨joins_neg h.1, fun u hu hne => ?_⟩
  have := h.2 (-u) (joins_neg hu) (fun e => hne (by rw [← e, neg_neg]))
  rwa [hl, ← hl v] at this

theorem nearest_unique (ht : 0 < tol) {a b : Nat} {v w : Fin 3 → K} (h : g.Nearest tol a b v)
    (h' : g.Nearest tol a b w) : v = w := by
  by_contra hne
  have h1 := h.2 w h'.1 (fun e => hne e.symm)
  have h2 := h'.2 v h.1 hne
  linarith

theorem allNearest_first (hl : ∀ v, g.length (-v) = g.length v) {a b c : Nat}
    (h : g.AllNearest tol a b c) : g.AllNearest tol b a c := by
  obtain ⟨v, w, h1, h2, h3⟩ := h
  refine ⟨-v, w - v, nearest_neg hl h1, h3, ?_⟩
  rwa [show w - v - -v = w by abel]

theorem allNearest_last (hl : ∀ v, g.length (-v) = g.length v) {a b c : Nat}
    (h : g.AllNearest tol a b c) : g.AllNearest tol a c b := by
  obtain ⟨v, w, h1, h2, h3⟩ := h
  refine ⟨w, v, h2, h1, ?_⟩
  rw [show v - w = -(w - v) by abel]
  exact nearest_neg hl h3

/-! ### The supercell -/

variable {at' : AtomTriplets K} {p2p : Int → Nat} {perms : List (Nat → Nat)}

theorem joins_translate (hs : IsSupercell at' p2p perms g) {σ : Nat → Nat} (hσ : σ ∈ perms)
    {a b : Nat} (ha : a < at'.numSatom) (hb : b < at'.numSatom) (v : Fin 3 → K) :
    g.Joins (σ a) (σ b) v ↔ g.Joins a b v := by
  obtain ⟨-, t, ht⟩ := hs.translation σ hσ
  have e := g.lattice.sub_mem (ht b hb) (ht a ha)
  unfold Geometry.Joins
  constructor
  · intro h
    have := g.lattice.add_mem h e
    convert this using 1
    abel
  · intro h
    have := g.lattice.sub_mem h e
    convert this using 1
    abel

theorem nearest_translate (hs : IsSupercell at' p2p perms g) {σ : Nat → Nat} (hσ : σ ∈ perms)
    {a b : Nat} (ha : a < at'.numSatom) (hb : b < at'.numSatom) (v : Fin 3 → K) :
    g.Nearest tol (σ a) (σ b) v ↔ g.Nearest tol a b v := by
  unfold Geometry.Nearest
  simp only [joins_translate hs hσ ha hb]

theorem allNearest_translate (hs : IsSupercell at' p2p perms g) {σ : Nat → Nat} (hσ : σ ∈ perms)
    {a b c : Nat} (ha : a < at'.numSatom) (hb : b < at'.numSatom) (hc : c < at'.numSatom) :
    g.AllNearest tol (σ a) (σ b) (σ c) ↔ g.AllNearest tol a b c := by
  unfold Geometry.AllNearest
  simp only [nearest_translate hs hσ ha hb, nearest_translate hs hσ ha hc,
    nearest_translate hs hσ hb hc]

theorem homeward (hs : IsSupercell at' p2p perms g) :
    ∃ T : Nat → Nat → Nat, ∀ s < at'.numSatom,
      perms.filter (fun σ => decide ((σ s : Int) = at'.s2p s)) = [T s] := by
  have h : ∀ s, ∃ σ : Nat → Nat, s < at'.numSatom →
      perms.filter (fun σ => decide ((σ s : Int) = at'.s2p s)) = [σ] := by
    intro s
    by_cases hlt : s < at'.numSatom
    · have h1 := hs.unique s hlt
      rw [List.countP_eq_length_filter] at h1
      obtain ⟨σ, e⟩ := List.length_eq_one_iff.1 h1
      exact ⟨σ, fun _ => e⟩
    · exact ⟨id, fun h => absurd h hlt⟩
  choose T hT using h
  exact ⟨T, hT⟩

theorem homeward_mem {T : Nat → Nat → Nat} {s : Nat}
    (h : perms.filter (fun σ => decide ((σ s : Int) = at'.s2p s)) = [T s]) :
    T s ∈ perms ∧ (T s s : Int) = at'.s2p s := by
  have : T s ∈ perms.filter (fun σ => decide ((σ s : Int) = at'.s2p s)) := by rw [h]; simp
  rw [List.mem_filter] at this
  exact ⟨this.1, of_decide_eq_true this.2⟩

theorem translations_inverse (hs : IsSupercell at' p2p perms g) {σ τ : Nat → Nat} (hσ : σ ∈ perms)
    (hτ : τ ∈ perms) {a : Nat} (ha : a < at'.numSatom) (h : τ (σ a) = a) :
    ∀ s < at'.numSatom, τ (σ s) = s := by
  intro s hlt
  obtain ⟨hb, t, ht⟩ := hs.translation σ hσ
  obtain ⟨hb', t', ht'⟩ := hs.translation τ hτ
  refine hs.distinct _ (hb' _ (hb s hlt).1).1 _ hlt ?_
  have e1 := ht a ha
  have e2 := ht' (σ a) (hb a ha).1
  have e3 := ht s hlt
  have e4 := ht' (σ s) (hb s hlt).1
  rw [h] at e2
  have := g.lattice.sub_mem (g.lattice.add_mem e3 e4) (g.lattice.add_mem e1 e2)
  convert this using 1
  abel

/-! ### Lists of shortest vectors -/

theorem shortest_nearest (ht : 0 < tol) (hv : ListsShortest at' g tol) {i s : Nat}
    (hi : i < at'.numPatom) (hlt : s < at'.numSatom) :
    (¬(multiAt at' s i).1 > 1 →
      (multiAt at' s i).1 = 1 ∧
        g.Nearest tol (at'.p2s i).toNat s (at'.svecs (multiAt at' s i).2)) ∧
    ∀ v, g.Nearest tol (at'.p2s i).toNat s v →
      (multiAt at' s i).1 = 1 ∧ at'.svecs (multiAt at' s i).2 = v := by
  obtain ⟨w, hw, hmin, hall⟩ := hv.all i hi s hlt
  have hone := hv.once i hi s hlt
  unfold multiAt
  set m := at'.multiplicity (s * at'.numPatom + i) with hm
  obtain ⟨x0, hx0, e0⟩ := (hall w).2 ⟨hw, by linarith⟩
  constructor
  · intro hle
    have h1 : m.1 = 1 := by omega
    have hx : x0 = 0 := by omega
    subst hx
    have e0' : at'.svecs m.2 = w := by simpa using e0
    refine ⟨h1, ?_⟩
    rw [e0']
    refine ⟨hw, fun u hu hne => ?_⟩
    by_contra hlt'
    push Not at hlt'
    obtain ⟨x, hx, e⟩ := (hall u).2 ⟨hu, hlt'⟩
    have hx' : x = 0 := by omega
    subst hx'
    exact hne (e.symm.trans e0)
  · intro v hvn
    have hvw : w = v := by
      by_contra hne
      have h1 := hvn.2 w hw hne
      have h2 := hmin v hvn.1
      linarith
    subst hvw
    have every : ∀ x < m.1, at'.svecs (m.2 + (x : Nat)) = w := by
      intro x hx
      by_contra hne
      obtain ⟨hj, hlen⟩ := (hall (at'.svecs (m.2 + (x : Nat)))).1 ⟨x, hx, rfl⟩
      have := hvn.2 _ hj hne
      linarith
    have hle : m.1 ≤ 1 := by
      by_contra hgt
      have := hone 0 (by omega) 1 (by omega) ((every 0 (by omega)).trans (every 1 (by omega)).symm)
      omega
    refine ⟨by omega, ?_⟩
    have := every 0 (by omega)
    simpa using this

theorem joins_listed (hv : ListsShortest at' g tol) (ht : 0 < tol) {i s : Nat}
    (hi : i < at'.numPatom) (hlt : s < at'.numSatom) :
    g.Joins (at'.p2s i).toNat s (at'.svecs (at'.multiplicity (s * at'.numPatom + i)).2) := by
  obtain ⟨w, hw, hmin, hall⟩ := hv.all i hi s hlt
  obtain ⟨x0, hx0, e0⟩ := (hall w).2 ⟨hw, by linarith⟩
  have := (hall (at'.svecs ((at'.multiplicity (s * at'.numPatom + i)).2 + (0 : Nat)))).1
    ⟨0, by omega, rfl⟩
  simpa using this.1

/-! ### The flags -/

theorem latticeNorm_neg (sqrt : K → K) (lattice : Fin 3 → Fin 3 → K) (v : Fin 3 → K) :
    latticeNorm sqrt lattice (-v) = latticeNorm sqrt lattice v := by
  unfold latticeNorm
  congr 1
  simp only [Pi.neg_apply]
  ring

theorem mapM_flatten {α β : Type} (f : α → Option (List β)) (l : List α) {r : List (List β)}
    (h : l.mapM f = some r) (b : β) : b ∈ r.flatten ↔ ∃ a ∈ l, ∃ s, f a = some s ∧ b ∈ s := by
  induction l generalizing r with
  | nil =>
    simp only [List.mapM_nil, Option.pure_def, Option.some.injEq] at h
    subst h
    simp
  | cons a l ih =>
    rw [List.mapM_cons] at h
    cases hf : f a with
    | none => rw [hf] at h; simp at h
    | some s =>
      cases hr : l.mapM f with
      | none => rw [hf, hr] at h; simp at h
      | some r' =>
        rw [hf, hr] at h
        simp only [Option.pure_def, Option.bind_eq_bind, Option.bind_some, Option.some.injEq] at h
        subst h
        rw [List.flatten_cons, List.mem_append, ih hr]
        constructor
        · rintro (h1 | ⟨a', ha', s', hs', hb⟩)
          · exact ⟨a, by simp, s, hf, h1⟩
          · exact ⟨a', by simp [ha'], s', hs', hb⟩
        · rintro ⟨a', ha', s', hs', hb⟩
          rcases List.mem_cons.1 ha' with rfl | h2
          · rw [hf] at hs'
            cases hs'
            exact Or.inl hb
          · exact Or.inr ⟨a', h2, s', hs', hb⟩

theorem mapM_total {α β : Type} (f : α → Option β) (l : List α) (h : ∀ a ∈ l, (f a).isSome) :
    (l.mapM f).isSome := by
  induction l with
  | nil => simp
  | cons a l ih =>
    rw [List.mapM_cons]
    obtain ⟨b, hb⟩ := Option.isSome_iff_exists.1 (h a (by simp))
    obtain ⟨r, hr⟩ := Option.isSome_iff_exists.1 (ih fun a' ha' => h a' (by simp [ha']))
    rw [hb, hr]
    rfl

theorem shortestStoresOf_eq (sqrt : K → K) (lattice : Fin 3 → Fin 3 → K)
    (hs : IsSupercell at' p2p perms g) {T : Nat → Nat → Nat} {i j : Nat}
    (hj : j < at'.numSatom)
    (hT : perms.filter (fun σ => decide ((σ j : Int) = at'.s2p j)) = [T j]) :
    shortestStoresOf sqrt at' p2p perms lattice tol i j =
      if (multiAt at' j i).1 > 1 then some []
      else some (loop at'.numSatom fun k =>
        shortestStoreAt sqrt at' lattice tol (T j) i j (p2p (at'.s2p j)) k) := by
  unfold shortestStoresOf
  split_ifs
  · rfl
  · rw [(hs.others j hj).2.1, hT]

theorem flag_iff (sqrt : K → K) (lattice : Fin 3 → Fin 3 → K)
    (hlen : g.length = latticeNorm sqrt lattice) (ht : 0 < tol)
    (hs : IsSupercell at' p2p perms g) (hv : ListsShortest at' g tol) {A : Int → Bool}
    (hA : getAllShortest sqrt at' p2p perms lattice tol = some A) {i j k : Nat}
    (hi : i < at'.numPatom) (hj : j < at'.numSatom) (hk : k < at'.numSatom) :
    A (at3 at'.numSatom at'.numSatom i j k : Nat) = true ↔
      g.AllNearest tol (at'.p2s i).toNat j k := by
  obtain ⟨T, hT⟩ := homeward hs
  obtain ⟨hTm, hTj⟩ := homeward_mem (hT j hj)
  unfold getAllShortest at hA
  rw [Option.map_eq_some_iff] at hA
  obtain ⟨stores, hst, rfl⟩ := hA
  have hmem := mapM_flatten _ _ hst
  have htrue : ∀ w ∈ stores.flatten, ∃ i' < at'.numPatom, ∃ j' < at'.numSatom, ∃ k' < at'.numSatom,
      w = (((i' * at'.numSatom * at'.numSatom + j' * at'.numSatom + k' : Nat) : Int), true) ∧
      w ∈ shortestStoreAt sqrt at' lattice tol (T j') i' j' (p2p (at'.s2p j')) k' ∧
      ¬(multiAt at' j' i').1 > 1 := by
    intro w hw
    obtain ⟨ij, hij, s, hs', hws⟩ := (hmem w).1 hw
    rw [List.mem_range] at hij
    have hpos : 0 < at'.numSatom := by omega
    have hj' : ij % at'.numSatom < at'.numSatom := Nat.mod_lt _ hpos
    have hi' : ij / at'.numSatom < at'.numPatom := by
      rw [Nat.div_lt_iff_lt_mul hpos]
      exact hij
    rw [shortestStoresOf_eq sqrt lattice hs hj' (hT _ hj')] at hs'
    split_ifs at hs' with h1
    · cases hs'
      cases hws
    · cases hs'
      obtain ⟨k', hk', hw'⟩ := mem_loop.1 hws
      refine ⟨_, hi', _, hj', k', hk', ?_, hw', h1⟩
      unfold shortestStoreAt at hw'
      split_ifs at hw' with h2 h3
      · cases hw'
      · cases hw'
      · dsimp only at hw'
        split_ifs at hw' with h4
        · exact List.mem_singleton.1 hw'
        · cases hw'
  have hagree : Agree stores.flatten := by
    intro u hu w hw _
    obtain ⟨_, _, _, _, _, _, rfl, _⟩ := htrue u hu
    obtain ⟨_, _, _, _, _, _, rfl, _⟩ := htrue w hw
    rfl
  have hat : ∀ i' j' k' : Nat, i' * at'.numSatom * at'.numSatom + j' * at'.numSatom + k' =
      at3 at'.numSatom at'.numSatom i' j' k' := by
    intro i' j' k'
    unfold at3
    ring
  have hset : runWrites (fun _ => false) stores.flatten
      (at3 at'.numSatom at'.numSatom i j k : Nat) = true ↔
      (((at3 at'.numSatom at'.numSatom i j k : Nat) : Int), true) ∈ stores.flatten := by
    constructor
    · intro h
      by_contra hno
      rw [runWrites_untouched] at h
      · exact Bool.false_ne_true h
      · intro w hw e
        obtain ⟨_, _, _, _, _, _, rfl, _⟩ := htrue w hw
        exact hno (by rw [← e]; exact hw)
    · intro h
      exact runWrites_value (fun _ => false) _ hagree _ h
  rw [hset]
  have hclass := (hs.others j hj)
  have hrep : (T j j) = (at'.p2s (p2p (at'.s2p j))).toNat := by
    rw [hclass.2.1, ← hTj]
    rfl
  have hTk : T j k < at'.numSatom := ((hs.translation _ hTm).1 k hk).1
  have sj := shortest_nearest ht hv hi hj
  have sk := shortest_nearest ht hv hi hk
  have sm := shortest_nearest ht hv hclass.1 hTk
  rw [← hrep] at sm
  have hdiff : (fun d => at'.svecs (multiAt at' k i).2 d - at'.svecs (multiAt at' j i).2 d) =
      at'.svecs (multiAt at' k i).2 - at'.svecs (multiAt at' j i).2 := rfl
  constructor
  · intro hin
    obtain ⟨i', hi', j', hj', k', hk', e, hw, hm⟩ := htrue _ hin
    rw [hat] at e
    obtain ⟨rfl, rfl, rfl⟩ := at3_inj hj hk hj' hk' (Int.ofNat.inj (congrArg Prod.fst e))
    unfold shortestStoreAt at hw
    split_ifs at hw with h2 h3
    · cases hw
    · cases hw
    · dsimp only at hw
      split_ifs at hw with h4
      · rw [hdiff] at h4
        have n1 := (sj.1 hm).2
        have n2 := (sk.1 h2).2
        have n3 := (sm.1 h3).2
        rw [nearest_translate hs hTm hj hk] at n3
        refine ⟨_, _, n1, n2, ?_⟩
        have hjoin : g.Joins j k (at'.svecs (multiAt at' k i).2 - at'.svecs (multiAt at' j i).2) := by
          have := g.lattice.sub_mem n2.1 n1.1
          unfold Geometry.Joins
          convert this using 1
          abel
        by_cases he : at'.svecs (multiAt at' k i).2 - at'.svecs (multiAt at' j i).2 =
            at'.svecs (multiAt at' (T j k) (p2p (at'.s2p j))).2
        · rw [he]
          exact n3
        · have := n3.2 _ hjoin he
          rw [hlen] at this
          have h5 := (abs_lt.1 h4).1
          linarith
      · cases hw
  · rintro ⟨v, w, n1, n2, n3⟩
    obtain ⟨c1, rfl⟩ := sj.2 v n1
    obtain ⟨c2, rfl⟩ := sk.2 w n2
    rw [← nearest_translate hs hTm hj hk] at n3
    obtain ⟨c3, e3⟩ := sm.2 _ n3
    rw [hmem]
    refine ⟨at2 at'.numSatom i j, ?_, loop at'.numSatom fun k =>
        shortestStoreAt sqrt at' lattice tol (T j) i j (p2p (at'.s2p j)) k, ?_, ?_⟩
    · rw [List.mem_range]
      exact digits_lt hi hj
    · have hd : at2 at'.numSatom i j / at'.numSatom = i := by
        unfold at2
        rw [mul_comm, Nat.mul_add_div (by omega), Nat.div_eq_of_lt hj, add_zero]
      have hmod : at2 at'.numSatom i j % at'.numSatom = j := by
        unfold at2
        rw [mul_comm, Nat.mul_add_mod]
        exact Nat.mod_eq_of_lt hj
      rw [hd, hmod, shortestStoresOf_eq sqrt lattice hs hj (hT j hj), if_neg (by omega)]
    · rw [mem_loop]
      refine ⟨k, hk, ?_⟩
      unfold shortestStoreAt
      rw [if_neg (by omega), if_neg (by omega)]
      dsimp only
      rw [hdiff, ← e3, sub_self, abs_zero, if_pos ht, hat]
      simp

theorem getAllShortest_total (sqrt : K → K) (lattice : Fin 3 → Fin 3 → K)
    (hs : IsSupercell at' p2p perms g) :
    (getAllShortest sqrt at' p2p perms lattice tol).isSome := by
  obtain ⟨T, hT⟩ := homeward hs
  unfold getAllShortest
  rw [Option.isSome_map]
  refine mapM_total _ _ fun ij hij => ?_
  rw [List.mem_range] at hij
  have hpos : 0 < at'.numSatom := by
    rcases Nat.eq_zero_or_pos at'.numSatom with h | h
    · rw [h] at hij; omega
    · exact h
  have hj' : ij % at'.numSatom < at'.numSatom := Nat.mod_lt _ hpos
  rw [shortestStoresOf_eq sqrt lattice hs hj' (hT _ hj')]
  split_ifs <;> rfl

/-! ### Sums over triples of atoms -/

/-- A sum over the translations of atoms `j` and `k` seen from atom `i` is one over the translations
of `i` and `k` seen from `j`. -/
theorem sum_seen_from (hs : IsSupercell at' p2p perms g) {M : Type} [AddCommMonoid M]
    (U : Nat → Nat → Nat → M)
    (hU : ∀ σ ∈ perms, ∀ a < at'.numSatom, ∀ b < at'.numSatom, ∀ c < at'.numSatom,
      U (σ a) (σ b) (σ c) = U a b c)
    {i j k : Nat} (hi : i < at'.numPatom) (hj : j < at'.numPatom) :
    (∑ b ∈ Finset.range at'.numSatom, ∑ c ∈ Finset.range at'.numSatom,
      if at'.s2p b = at'.p2s j ∧ at'.s2p c = at'.p2s k then U (at'.p2s i).toNat b c else 0) =
    ∑ a ∈ Finset.range at'.numSatom, ∑ c ∈ Finset.range at'.numSatom,
      if at'.s2p a = at'.p2s i ∧ at'.s2p c = at'.p2s k then U a (at'.p2s j).toNat c else 0 := by
  obtain ⟨T, hT⟩ := homeward hs
  have hmem := fun s (h : s < at'.numSatom) => (homeward_mem (hT s h)).1
  have hhome : ∀ s < at'.numSatom, T s s = (at'.s2p s).toNat := by
    intro s h
    rw [← (homeward_mem (hT s h)).2]
    rfl
  have hlt := fun s (h : s < at'.numSatom) t (h' : t < at'.numSatom) =>
    ((hs.translation _ (hmem s h)).1 t h').1
  have hcl := fun s (h : s < at'.numSatom) t (h' : t < at'.numSatom) =>
    ((hs.translation _ (hmem s h)).1 t h').2
  have hfirst : ∀ i < at'.numPatom, (at'.p2s i).toNat < at'.numSatom ∧
      at'.s2p (at'.p2s i).toNat = at'.p2s i := by
    intro i hi
    obtain ⟨h0, h1, -, h2⟩ := hs.first i hi
    exact ⟨by omega, h2⟩
  -- going to the primitive cell of the second and back
  have back : ∀ i < at'.numPatom, ∀ b < at'.numSatom, ∀ s < at'.numSatom,
      T (T b (at'.p2s i).toNat) (T b s) = s := by
    intro i hi b hb
    obtain ⟨hil, hic⟩ := hfirst i hi
    have ha := hlt b hb _ hil
    refine translations_inverse hs (hmem b hb) (hmem _ ha) hil ?_
    rw [hhome _ ha, hcl b hb _ hil, hic]
  rw [← Finset.sum_product', ← Finset.sum_product', ← Finset.sum_filter, ← Finset.sum_filter]
  refine Finset.sum_nbij' (fun p => (T p.1 (at'.p2s i).toNat, T p.1 p.2))
    (fun p => (T p.1 (at'.p2s j).toNat, T p.1 p.2)) ?_ ?_ ?_ ?_ ?_
  · rintro ⟨b, c⟩ hp
    simp only [Finset.mem_filter, Finset.mem_product, Finset.mem_range] at hp ⊢
    obtain ⟨⟨hb, hc⟩, e1, e2⟩ := hp
    obtain ⟨hil, hic⟩ := hfirst i hi
    exact ⟨⟨hlt b hb _ hil, hlt b hb _ hc⟩, by rw [hcl b hb _ hil, hic], by rw [hcl b hb _ hc, e2]⟩
  · rintro ⟨a, c⟩ hp
    simp only [Finset.mem_filter, Finset.mem_product, Finset.mem_range] at hp ⊢
    obtain ⟨⟨ha, hc⟩, e1, e2⟩ := hp
    obtain ⟨hjl, hjc⟩ := hfirst j hj
    exact ⟨⟨hlt a ha _ hjl, hlt a ha _ hc⟩, by rw [hcl a ha _ hjl, hjc], by rw [hcl a ha _ hc, e2]⟩
  · rintro ⟨b, c⟩ hp
    simp only [Finset.mem_filter, Finset.mem_product, Finset.mem_range] at hp ⊢
    obtain ⟨⟨hb, hc⟩, e1, e2⟩ := hp
    have hpj : (at'.p2s j).toNat = T b b := by rw [hhome b hb, e1]
    rw [hpj, back i hi b hb b hb, back i hi b hb c hc]
  · rintro ⟨a, c⟩ hp
    simp only [Finset.mem_filter, Finset.mem_product, Finset.mem_range] at hp ⊢
    obtain ⟨⟨ha, hc⟩, e1, e2⟩ := hp
    have hpi : (at'.p2s i).toNat = T a a := by rw [hhome a ha, e1]
    rw [hpi, back j hj a ha a ha, back j hj a ha c hc]
  · rintro ⟨b, c⟩ hp
    simp only [Finset.mem_filter, Finset.mem_product, Finset.mem_range] at hp ⊢
    obtain ⟨⟨hb, hc⟩, e1, e2⟩ := hp
    have hpj : (at'.p2s j).toNat = T b b := by rw [hhome b hb, e1]
    rw [hpj, hU _ (hmem b hb) _ (hfirst i hi).1 _ hb _ hc]

/-! ### Phases -/

theorem phase_of_integers {expi : K → Cplx K} (he : IsPhase expi) {G v : Fin 3 → K}
    (hG : ∃ z : Fin 3 → Int, ∀ d, G d = z d) (hv : ∃ z : Fin 3 → Int, ∀ d, v d = z d) :
    expi (dot G v) = 1 := by
  obtain ⟨z, hz⟩ := hG
  obtain ⟨y, hy⟩ := hv
  have : dot G v = ((z 0 * y 0 + z 1 * y 1 + z 2 * y 2 : Int) : K) := by
    unfold dot
    rw [Fin.sum_univ_three, hz, hz, hz, hy, hy, hy]
    push_cast
    ring
  rw [this, he.int]

theorem phase_shift {expi : K → Cplx K} (he : IsPhase expi) {G v : Fin 3 → K} {x y : K}
    (hG : ∃ z : Fin 3 → Int, ∀ d, G d = z d) (hv : ∃ z : Fin 3 → Int, ∀ d, v d = z d)
    (h : x = y + dot G v) : expi x = expi y := by
  rw [h, he.add, phase_of_integers he hG hv, mul_one]

open Classical in
/-- The vector to the nearest image, if there is one. -/
noncomputable def nearestVec (g : Geometry K) (tol : K) (a b : Nat) : Fin 3 → K :=
  if h : ∃ v, g.Nearest tol a b v then h.choose else 0

theorem nearestVec_eq (ht : 0 < tol) {a b : Nat} {v : Fin 3 → K} (h : g.Nearest tol a b v) :
    nearestVec g tol a b = v := by
  have hex : ∃ v, g.Nearest tol a b v := ⟨v, h⟩
  unfold nearestVec
  rw [dif_pos hex]
  exact nearest_unique ht hex.choose_spec h

open Classical in
/-- The summand of three atoms that are nearest to each other. -/
noncomputable def nearestTerm (expi : K → Cplx K) (g : Geometry K) (tol : K)
    (Φ : Nat → Nat → Nat → Nat → Nat → Nat → K) (q0 q1 q2 : Fin 3 → K) (x y z a b c : Nat) :
    Cplx K :=
  if g.AllNearest tol a b c then
    (expi (dot q0 (g.pos a) + dot q1 (g.pos a + nearestVec g tol a b) +
      dot q2 (g.pos a + nearestVec g tol a c))).scale (Φ a b c x y z)
  else 0

theorem nearestTerm_first (ht : 0 < tol) (hl : ∀ v, g.length (-v) = g.length v)
    {expi : K → Cplx K} (he : IsPhase expi)
    (hint : ∀ v ∈ g.lattice, ∃ z : Fin 3 → Int, ∀ d, v d = z d)
    {Φ : Nat → Nat → Nat → Nat → Nat → Nat → K} {q0 q1 q2 : Fin 3 → K}
    (hq : ∃ z : Fin 3 → Int, ∀ d, q0 d + q1 d + q2 d = z d) {x y z a b c : Nat}
    (hΦ : Φ b a c y x z = Φ a b c x y z) :
    nearestTerm expi g tol Φ q1 q0 q2 y x z b a c = nearestTerm expi g tol Φ q0 q1 q2 x y z a b c := by
  unfold nearestTerm
  by_cases h : g.AllNearest tol a b c
  · rw [if_pos h, if_pos (allNearest_first hl h), hΦ]
    obtain ⟨v, w, h1, h2, h3⟩ := h
    rw [nearestVec_eq ht h1, nearestVec_eq ht h2, nearestVec_eq ht (nearest_neg hl h1),
      nearestVec_eq ht h3]
    congr 1
    refine (phase_shift he (G := fun d => q0 d + q1 d + q2 d) hq (hint _ h1.1) ?_).symm
    unfold dot
    simp only [Fin.sum_univ_three, Pi.add_apply, Pi.sub_apply, Pi.neg_apply]
    ring
  · rw [if_neg h, if_neg fun h' => h (allNearest_first hl h')]

theorem nearestTerm_last (hl : ∀ v, g.length (-v) = g.length v) (expi : K → Cplx K)
    {Φ : Nat → Nat → Nat → Nat → Nat → Nat → K} (q0 q1 q2 : Fin 3 → K) {x y z a b c : Nat}
    (hΦ : Φ a c b x z y = Φ a b c x y z) :
    nearestTerm expi g tol Φ q0 q2 q1 x z y a c b = nearestTerm expi g tol Φ q0 q1 q2 x y z a b c := by
  unfold nearestTerm
  by_cases h : g.AllNearest tol a b c
  · rw [if_pos h, if_pos (allNearest_last hl h), hΦ]
    congr 2
    ring
  · rw [if_neg h, if_neg fun h' => h (allNearest_last hl h')]

theorem nearestTerm_translate (ht : 0 < tol) {expi : K → Cplx K} (he : IsPhase expi)
    (hs : IsSupercell at' p2p perms g)
    {Φ : Nat → Nat → Nat → Nat → Nat → Nat → K} {q0 q1 q2 : Fin 3 → K}
    (hq : ∃ z : Fin 3 → Int, ∀ d, q0 d + q1 d + q2 d = z d) {x y z a b c : Nat}
    {σ : Nat → Nat} (hσ : σ ∈ perms) (ha : a < at'.numSatom) (hb : b < at'.numSatom)
    (hc : c < at'.numSatom) (hΦ : Φ (σ a) (σ b) (σ c) x y z = Φ a b c x y z) :
    nearestTerm expi g tol Φ q0 q1 q2 x y z (σ a) (σ b) (σ c) =
      nearestTerm expi g tol Φ q0 q1 q2 x y z a b c := by
  unfold nearestTerm
  by_cases h : g.AllNearest tol a b c
  · rw [if_pos h, if_pos ((allNearest_translate hs hσ ha hb hc).2 h), hΦ]
    obtain ⟨v, w, h1, h2, h3⟩ := h
    rw [nearestVec_eq ht h1, nearestVec_eq ht h2,
      nearestVec_eq ht ((nearest_translate hs hσ ha hb v).2 h1),
      nearestVec_eq ht ((nearest_translate hs hσ ha hc w).2 h2)]
    congr 1
    have hcl := ((hs.translation σ hσ).1 a ha)
    obtain ⟨z1, e1⟩ := (hs.others a ha).2.2
    obtain ⟨z2, e2⟩ := (hs.others _ hcl.1).2.2
    rw [hcl.2] at e2
    refine phase_shift he (G := fun d => q0 d + q1 d + q2 d) (v := g.pos (σ a) - g.pos a) hq
      ⟨fun d => z2 d - z1 d, fun d => ?_⟩ ?_
    · rw [Pi.sub_apply]
      push_cast
      linear_combination e2 d - e1 d
    · unfold dot
      simp only [Fin.sum_univ_three, Pi.add_apply, Pi.sub_apply]
      ring
  · rw [if_neg h, if_neg fun h' => h ((allNearest_translate hs hσ ha hb hc).1 h')]

/-! ### One of the three sums -/

theorem scale_mul_left (z w : Cplx K) (r : K) : z.scale r * w = (z * w).scale r := by
  ext <;> simp [Cplx.scale] <;> ring

theorem phaseTable_one {expi : K → Cplx K} (q : Fin 3 → Fin 3 → K) (m : Fin 3) {i s : Nat}
    (h : (multiAt at' s i).1 = 1) :
    phaseTable expi at' q m i s = expi (dot (q m) (at'.svecs (multiAt at' s i).2)) := by
  unfold multiAt at h
  have e : phaseTable expi at' q m i s = meanPhase expi (q m) at'.svecs
      (at'.multiplicity (s * at'.numPatom + i)).1 (at'.multiplicity (s * at'.numPatom + i)).2 :=
    phaseFactor_eq ..
  rw [e]
  unfold meanPhase multiAt
  rw [h]
  ext <;> simp [Cplx.scale]

/-- One of the three sums of the average, with its factors for flagged triples. -/
def legSum (expi : K → Cplx K) (c : Crystal K) (q : Fin 3 → Fin 3 → K) (leg i j k x y z : Nat) :
    Cplx K :=
  r2rElement c.atoms (phaseTable expi c.atoms q 1 i) (phaseTable expi c.atoms q 2 i) c.fc3
    c.isCompact i j k leg (x * 9 + y * 3 + z) * prePhaseFactor expi c.atoms q i

/-- The factor of flagged triples, minus one. -/
def legExtra (leg : Nat) : K := if leg = 1 then 2 else if leg > 1 then -1 else 0

theorem legSum_split {expi : K → Cplx K} (he : IsPhase expi) (c : Crystal K)
    (hs : IsSupercell c.atoms p2p perms g) (hv : ListsShortest c.atoms g tol) (ht : 0 < tol)
    (hflag : ∀ i < c.atoms.numPatom, ∀ j < c.atoms.numSatom, ∀ k < c.atoms.numSatom,
      c.atoms.allShortest (at3 c.atoms.numSatom c.atoms.numSatom i j k : Nat) = true ↔
        g.AllNearest tol (c.atoms.p2s i).toNat j k)
    {Φ : Nat → Nat → Nat → Nat → Nat → Nat → K} (hΦ : HoldsSymmetricFc3 c perms Φ)
    {q : Fin 3 → Fin 3 → K} (hq : ∃ z : Fin 3 → Int, ∀ d, q 0 d + q 1 d + q 2 d = z d)
    (leg : Nat) {i j k x y z : Nat} (hi : i < c.atoms.numPatom) (hx : x < 3) (hy : y < 3)
    (hz : z < 3) :
    legSum expi c q leg i j k x y z = legSum expi c q 0 i j k x y z +
      (∑ b ∈ Finset.range c.atoms.numSatom, ∑ d ∈ Finset.range c.atoms.numSatom,
        if c.atoms.s2p b = c.atoms.p2s j ∧ c.atoms.s2p d = c.atoms.p2s k then
          nearestTerm expi g tol Φ (q 0) (q 1) (q 2) x y z (c.atoms.p2s i).toNat b d else 0).scale
        (legExtra leg) *
        expi (-dot (fun d => q 0 d + q 1 d + q 2 d) (g.pos (c.atoms.p2s 0).toNat)) := by
  have hnp : 0 < c.atoms.numPatom := by omega
  obtain ⟨hp0, hp1, -, -⟩ := hs.first i hi
  -- the phase of the first atom
  have hpre : prePhaseFactor expi c.atoms q i =
      expi (dot (fun d => q 0 d + q 1 d + q 2 d) (g.pos (c.atoms.p2s i).toNat)) *
        expi (-dot (fun d => q 0 d + q 1 d + q 2 d) (g.pos (c.atoms.p2s 0).toNat)) := by
    unfold prePhaseFactor
    simp only
    rw [dot3_comm, dot3_eq, ← he.add]
    have hj := joins_listed hv ht hnp (s := (c.atoms.p2s i).toNat) (by omega)
    have hidx : c.atoms.p2s i * (c.atoms.numPatom : Int) =
        ((c.atoms.p2s i).toNat : Int) * c.atoms.numPatom + ((0 : Nat) : Int) := by
      rw [Int.toNat_of_nonneg hp0]
      simp
    rw [hidx]
    refine phase_shift he (G := fun d => q 0 d + q 1 d + q 2 d) hq (hs.integer _ hj) ?_
    unfold dot
    simp only [Fin.sum_univ_three, Pi.sub_apply]
    ring
  unfold legSum
  rw [r2rElement_eq, r2rElement_eq, Finset.sum_mul, Finset.sum_mul]
  have hscale : ∀ (f : Nat → Nat → Cplx K) (r : K) (w : Cplx K) (n : Nat),
      (∑ b ∈ Finset.range n, ∑ d ∈ Finset.range n, f b d).scale r * w =
        ∑ b ∈ Finset.range n, ∑ d ∈ Finset.range n, (f b d).scale r * w := by
    intro f r w n
    have e : ∀ z : Cplx K, z.scale r = z * ⟨r, 0⟩ := by
      intro z
      ext <;> simp [Cplx.scale]
    simp only [e, Finset.sum_mul]
  rw [hscale, ← Finset.sum_add_distrib]
  refine Finset.sum_congr rfl fun b hb => ?_
  rw [Finset.sum_mul, Finset.sum_mul, ← Finset.sum_add_distrib]
  refine Finset.sum_congr rfl fun d hd => ?_
  rw [Finset.mem_range] at hb hd
  by_cases hcls : c.atoms.s2p b = c.atoms.p2s j ∧ c.atoms.s2p d = c.atoms.p2s k
  swap
  · simp only [if_neg hcls]
    ext <;> simp [Cplx.scale]
  simp only [if_pos hcls]
  have hfc : c.fc3 ((if c.isCompact then (i : Int) else c.atoms.p2s i) * 27 * c.atoms.numSatom *
      c.atoms.numSatom + b * 27 * c.atoms.numSatom + d * 27 + (x * 9 + y * 3 + z : Nat)) =
      Φ (c.atoms.p2s i).toNat b d x y z := by
    rw [← hΦ.holds i hi b hb d hd x hx y hy z hz]
    congr 1
    unfold fc3At fc3Row
    push_cast
    ring
  rw [hfc]
  have hidx : (i : Int) * c.atoms.numSatom * c.atoms.numSatom + b * c.atoms.numSatom + d =
      (at3 c.atoms.numSatom c.atoms.numSatom i b d : Nat) := by
    unfold at3
    push_cast
    ring
  have hl0 : legFactor c.atoms i 0 b d = 1 := by
    unfold legFactor
    simp
  rw [hl0, mul_one]
  by_cases hn : g.AllNearest tol (c.atoms.p2s i).toNat b d
  · have hl1 : legFactor c.atoms i leg b d = 1 + legExtra leg := by
      unfold legFactor legExtra
      rw [hidx, if_pos ((hflag i hi b hb d hd).2 hn)]
      split_ifs <;> norm_num
    unfold nearestTerm
    rw [if_pos hn, hl1]
    obtain ⟨v, w, h1, h2, h3⟩ := hn
    obtain ⟨c1, e1⟩ := (shortest_nearest ht hv hi hb).2 v h1
    obtain ⟨c2, e2⟩ := (shortest_nearest ht hv hi hd).2 w h2
    rw [phaseTable_one q 1 c1, phaseTable_one q 2 c2, e1, e2, nearestVec_eq ht h1,
      nearestVec_eq ht h2, hpre]
    have hsum : dot (q 0) (g.pos (c.atoms.p2s i).toNat) + dot (q 1) (g.pos (c.atoms.p2s i).toNat + v) +
        dot (q 2) (g.pos (c.atoms.p2s i).toNat + w) = dot (q 1) v + dot (q 2) w +
        dot (fun d => q 0 d + q 1 d + q 2 d) (g.pos (c.atoms.p2s i).toNat) := by
      unfold dot
      simp only [Fin.sum_univ_three, Pi.add_apply]
      ring
    rw [hsum, he.add, he.add]
    generalize expi (dot (q 1) v) = p1
    generalize expi (dot (q 2) w) = p2
    generalize expi (dot (fun d => q 0 d + q 1 d + q 2 d) (g.pos (c.atoms.p2s i).toNat)) = p3
    generalize expi (-dot (fun d => q 0 d + q 1 d + q 2 d) (g.pos (c.atoms.p2s 0).toNat)) = p4
    ext <;> simp [Cplx.scale] <;> ring
  · have hl1 : legFactor c.atoms i leg b d = 1 := by
      unfold legFactor
      rw [hidx, if_neg fun h => hn ((hflag i hi b hb d hd).1 h)]
    unfold nearestTerm
    rw [if_neg hn, hl1, mul_one]
    ext <;> simp [Cplx.scale]

end
end Phono3py
