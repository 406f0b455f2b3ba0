/- Fields and matrices on the mesh as flat arrays, and the solution in the irreducible layout. -/
import Verif.Lemmas.LBTEReduction

set_option linter.unusedSectionVars false

namespace Phono3py.Props
open Phono3py Phono3py.Spec Finset

section
variable {K : Type _} [Field K] [LinearOrder K] [IsStrictOrderedRing K]

/-- An array of shape `(n, nb)` in C order. -/
def flat2 {n : Nat} (nb : Nat) (F : Fin n → Nat → K) (p : Nat) : K :=
  if h : p / nb < n then F ⟨p / nb, h⟩ (p % nb) else 0

/-- An array of shape `(n, nb, 3)` in C order. -/
def flat3 {n : Nat} (nb : Nat) (F : Fin n → Nat → Fin 3 → K) (r : Nat) : K :=
  if h : r / 3 / nb < n then F ⟨r / 3 / nb, h⟩ (r / 3 % nb) ⟨r % 3, Nat.mod_lt _ (by decide)⟩ else 0

theorem flat2_at {n nb : Nat} (F : Fin n → Nat → K) (i : Fin n) {l : Nat} (hl : l < nb) :
    flat2 nb F (i * nb + l) = F i l := by
  have h := unravel2_at (i := (i : Nat)) hl
  unfold unravel2 at h
  have h1 := congrArg Prod.fst h
  have h2 := congrArg Prod.snd h
  unfold flat2
  simp only at h1 h2
  simp only [h1, h2, i.2, dif_pos]

theorem flat3_at {n nb : Nat} (F : Fin n → Nat → Fin 3 → K) (i : Fin n) {l : Nat} (hl : l < nb)
    (a : Fin 3) : flat3 nb F ((i * nb + l) * 3 + (a : Nat)) = F i l a := by
  have h := unravel3_at (i := (i : Nat)) hl a
  unfold unravel3 at h
  have h1 := congrArg Prod.fst h
  have h2 := congrArg (fun x => x.2.1) h
  have h3 := congrArg (fun x => x.2.2) h
  unfold flat3
  simp only at h1 h2 h3
  simp only [h1, h2, h3, i.2, dif_pos]

theorem split2 {n nb p : Nat} (h : p < n * nb) : ∃ (i : Fin n) (l : Nat), l < nb ∧ p = i * nb + l := by
  have hb : 0 < nb := by
    rcases Nat.eq_zero_or_pos nb with h0 | h0
    · subst h0; simp at h
    · exact h0
  exact ⟨⟨p / nb, Nat.div_lt_of_lt_mul (by rwa [Nat.mul_comm] at h)⟩, p % nb, Nat.mod_lt _ hb,
    (Nat.div_add_mod' p nb).symm⟩

theorem split3 {n nb r : Nat} (h : r < n * nb * 3) :
    ∃ (i : Fin n) (l : Nat) (a : Fin 3), l < nb ∧ r = (i * nb + l) * 3 + (a : Nat) := by
  obtain ⟨i, l, hl, e⟩ := split2 (n := n) (nb := nb) (p := r / 3) (by omega)
  refine ⟨i, l, ⟨r % 3, Nat.mod_lt _ (by decide)⟩, hl, ?_⟩
  rw [← e]
  exact (Nat.div_add_mod' r 3).symm

theorem at2_lt' {n nb : Nat} (i : Fin n) {l : Nat} (hl : l < nb) : (i : Nat) * nb + l < n * nb := by
  calc (i : Nat) * nb + l < i * nb + nb := by omega
    _ = (i + 1) * nb := by ring
    _ ≤ n * nb := Nat.mul_le_mul_right _ i.2

variable {G : Type _} [Group G] [Fintype G] {nq nI : Nat} [MulAction G (Fin nq)]
variable (R : G →* Matrix (Fin 3) (Fin 3) K) (ir : Fin nI → Fin nq) (h : StarsCover G ir)
  (w : Fin nI → K) (hw : ∀ k, w k * w k = ((star G (ir k)).card : K) / (Fintype.card G : K))
  (S : Fin nq → Nat → Fin nq → Nat → K)
  (hS : ∀ (g : G) q l q' l', S (g • q) l (g • q') l' = S q l q' l')

include hw in
theorem stab_weight (i : Fin nI) (c : K) :
    w i * w i * ∑ g : G, (if g • ir i = ir i then c else 0) = c := by
  have hc := card_stab_ne' (K := K) (G := G) (ir i)
  rw [hw, weight_eq, ← Finset.sum_filter, Finset.sum_const, nsmul_eq_mul, ← mul_assoc, one_div,
    inv_mul_cancel₀ hc, one_mul]

include h hw in
/-- The projection on vectors with the symmetry of their points leaves the reduced matrix
unchanged when multiplied from the right. -/
theorem reduced_projection (nb : Nat) (i : Fin nI) (l : Nat) (a : Fin 3) (i' : Fin nI) (l' : Nat)
    (hl' : l' < nb) (b : Fin 3) :
    ∑ k : Fin nI, ∑ m ∈ range nb, ∑ c : Fin 3,
        reducedMatrix R ir w S i l a k m c * (w k * liftMatrix R ir w c (ir k) m i' l' b) =
      reducedMatrix R ir w S i l a i' l' b := by
  rw [Finset.sum_eq_single i']
  · rw [Finset.sum_eq_single l']
    · unfold reducedMatrix liftMatrix
      simp only [if_true]
      have e : ∀ c : Fin 3, w i * w i' * (∑ g : G, S (ir i) l (g • ir i') l' * R g a c) *
          (w i' * (w i' * ∑ g : G, if g • ir i' = ir i' then R g c b else 0)) =
          ∑ x : G, w i' * w i' * (if x • ir i' = ir i' then
            w i * w i' * ∑ g : G, S (ir i) l (g • ir i') l' * (R g a c * R x c b) else 0) := by
        intro c
        rw [show ∀ A B : K, w i * w i' * A * (w i' * (w i' * B)) =
          w i' * w i' * (w i * w i' * (A * B)) by intros; ring, Finset.mul_sum, Finset.mul_sum,
          Finset.mul_sum]
        refine Finset.sum_congr rfl fun x _ => ?_
        split_ifs
        · rw [Finset.sum_mul]
          congr 2
          exact Finset.sum_congr rfl fun g _ => by ring
        · ring
      rw [Finset.sum_congr rfl fun c _ => e c, Finset.sum_comm]
      have e2 : ∀ x : G, (∑ c : Fin 3, w i' * w i' * (if x • ir i' = ir i' then
          w i * w i' * ∑ g : G, S (ir i) l (g • ir i') l' * (R g a c * R x c b) else 0)) =
          w i' * w i' * (if x • ir i' = ir i' then
            w i * w i' * ∑ g : G, S (ir i) l (g • ir i') l' * R g a b else 0) := by
        intro x
        rw [← Finset.mul_sum]
        congr 1
        split_ifs with hx
        · rw [← Finset.mul_sum, Finset.sum_comm]
          congr 1
          rw [← Equiv.sum_comp (Equiv.mulRight x) fun g : G => S (ir i) l (g • ir i') l' * R g a b]
          refine Finset.sum_congr rfl fun g _ => ?_
          rw [← Finset.mul_sum, Equiv.coe_mulRight, mul_smul, hx, map_mul, Matrix.mul_apply]
        · simp
      rw [Finset.sum_congr rfl fun x _ => e2 x, ← Finset.mul_sum]
      exact stab_weight ir w hw i' _
    · intro m _ hne
      refine Finset.sum_eq_zero fun c _ => ?_
      unfold liftMatrix
      rw [if_neg hne, mul_zero, mul_zero]
    · intro hn
      exact absurd (Finset.mem_range.2 hl') hn
  · intro k _ hne
    refine Finset.sum_eq_zero fun m _ => Finset.sum_eq_zero fun c _ => ?_
    rw [lift_at_ir R ir h w k i' hne.symm, mul_zero, mul_zero]
  · intro hk
    exact absurd (Finset.mem_univ i') hk

include h hw hS in
theorem projection_reduced (nb : Nat) (i : Fin nI) (l : Nat) (hl : l < nb) (a : Fin 3) (i' : Fin nI)
    (l' : Nat) (b : Fin 3) :
    ∑ k : Fin nI, ∑ m ∈ range nb, ∑ c : Fin 3,
        w i * liftMatrix R ir w a (ir i) l k m c * reducedMatrix R ir w S k m c i' l' b =
      reducedMatrix R ir w S i l a i' l' b := by
  have e := lift_intertwines R ir h w hw S hS nb a (ir i) l hl i' l' b
  unfold reducedMatrix at e ⊢
  rw [mul_assoc, ← e, Finset.mul_sum]
  refine Finset.sum_congr rfl fun k _ => ?_
  rw [Finset.mul_sum]
  refine Finset.sum_congr rfl fun m _ => ?_
  rw [Finset.mul_sum]
  exact Finset.sum_congr rfl fun c _ => by ring

include h hw hS in
/-- The solution in the irreducible layout is the weighted restriction of the solution on the full
mesh, and the latter has the symmetry of the crystal. -/
theorem reduced_solution (nb : Nat) (MI : Nat → Nat → K)
    (hMI : ∀ (i i' : Fin nI) (l l' : Nat) (a b : Fin 3), l < nb → l' < nb →
      MI ((i * nb + l) * 3 + (a : Nat)) ((i' * nb + l') * 3 + (b : Nat)) =
        reducedMatrix R ir w S i l a i' l' b)
    (wI : Nat → K) (VI : Nat → Nat → K) (hI : IsEigensystem (nI * nb * 3) MI wI VI)
    (MS : Nat → Nat → K)
    (hMS : ∀ (q q' : Fin nq) (l l' : Nat), l < nb → l' < nb →
      MS (q * nb + l) (q' * nb + l') = S q l q' l')
    (wS : Nat → K) (VS : Nat → Nat → K) (hE : IsEigensystem (nq * nb) MS wS VS)
    (x : Fin nq → Nat → Fin 3 → K) (hx : Equivariant (R ·) x) (f : K → K) :
    (∀ (i : Fin nI) (l : Nat) (a : Fin 3), l < nb →
      spectral (nI * nb * 3) wI VI f (flat3 nb fun i l a => w i * x (ir i) l a)
          ((i * nb + l) * 3 + (a : Nat)) =
        w i * spectral (nq * nb) wS VS f (flat2 nb fun q l => x q l a) (ir i * nb + l)) ∧
    ∀ (g : G) (q : Fin nq) (l : Nat), l < nb →
      (fun a : Fin 3 => spectral (nq * nb) wS VS f (flat2 nb fun q l => x q l a) ((g • q : Fin nq) * nb + l)) =
        (R g).mulVec fun a => spectral (nq * nb) wS VS f (flat2 nb fun q l => x q l a) (q * nb + l) := by
  -- the solution on the full mesh is lifted from the irreducible points
  have lifted : ∀ (q : Fin nq) (l : Nat) (a : Fin 3), l < nb →
      spectral (nq * nb) wS VS f (flat2 nb fun q l => x q l a) (q * nb + l) =
        ∑ i : Fin nI, ∑ l' ∈ range nb, ∑ b : Fin 3, liftMatrix R ir w a q l i l' b *
          spectral (nI * nb * 3) wI VI f (flat3 nb fun i l a => w i * x (ir i) l a)
            ((i * nb + l') * 3 + (b : Nat)) := by
    intro q l a hl
    have key := intertwine hE hI
      (fun p r => flat2 nb (fun q l => flat3 nb (fun i l' b => liftMatrix R ir w a q l i l' b) r) p)
      (by
        intro p hp r hr
        obtain ⟨q, l, hl, rfl⟩ := split2 hp
        obtain ⟨i', l', b, hl', rfl⟩ := split3 hr
        rw [sum_flat2, sum_flat3]
        have e1 : ∀ q' : Fin nq, ∀ l'' ∈ range nb, MS (q * nb + l) (q' * nb + l'') *
            flat2 nb (fun q l => flat3 nb (fun i l' b => liftMatrix R ir w a q l i l' b)
              ((i' * nb + l') * 3 + (b : Nat))) (q' * nb + l'') =
            S q l q' l'' * liftMatrix R ir w a q' l'' i' l' b := by
          intro q' l'' h''
          have h'' := Finset.mem_range.1 h''
          rw [hMS q q' l l'' hl h'', flat2_at _ q' h'', flat3_at _ i' hl']
        have e2 : ∀ i : Fin nI, ∀ l'' ∈ range nb, ∀ c ∈ (Finset.univ : Finset (Fin 3)),
            flat2 nb (fun q l => flat3 nb (fun i l' b => liftMatrix R ir w a q l i l' b)
              ((i * nb + l'') * 3 + (c : Nat))) (q * nb + l) *
            MI ((i * nb + l'') * 3 + (c : Nat)) ((i' * nb + l') * 3 + (b : Nat)) =
            liftMatrix R ir w a q l i l'' c * reducedMatrix R ir w S i l'' c i' l' b := by
          intro i l'' h'' c _
          have h'' := Finset.mem_range.1 h''
          rw [hMI i i' l'' l' c b h'' hl', flat2_at _ q hl, flat3_at _ i h'']
        rw [Finset.sum_congr rfl fun q' _ => Finset.sum_congr rfl (e1 q'),
          Finset.sum_congr rfl fun i _ => Finset.sum_congr rfl fun l'' h'' =>
            Finset.sum_congr rfl (e2 i l'' h''), full_lift R ir w S nb a q l i' l' hl' b,
          lift_intertwines R ir h w hw S hS nb a q l hl i' l' b])
      f (flat3 nb fun i l a => w i * x (ir i) l a) (q * nb + l) (at2_lt' q hl)
    have ex : ∀ p < nq * nb, (∑ j ∈ range (nI * nb * 3),
        flat2 nb (fun q l => flat3 nb (fun i l' b => liftMatrix R ir w a q l i l' b) j) p *
          flat3 nb (fun i l a => w i * x (ir i) l a) j) = flat2 nb (fun q l => x q l a) p := by
      intro p hp
      obtain ⟨q, l, hl, rfl⟩ := split2 hp
      rw [sum_flat3, flat2_at _ q hl, ← lift_field R ir h w hw nb x hx a q l hl]
      refine Finset.sum_congr rfl fun i _ => Finset.sum_congr rfl fun l' h' =>
        Finset.sum_congr rfl fun b _ => ?_
      have h' := Finset.mem_range.1 h'
      rw [flat2_at _ q hl, flat3_at _ i h', flat3_at _ i h']
    have es : spectral (nq * nb) wS VS f (flat2 nb fun q l => x q l a) (q * nb + l) =
        spectral (nq * nb) wS VS f (fun p => ∑ j ∈ range (nI * nb * 3),
          flat2 nb (fun q l => flat3 nb (fun i l' b => liftMatrix R ir w a q l i l' b) j) p *
          flat3 nb (fun i l a => w i * x (ir i) l a) j) (q * nb + l) := by
      unfold spectral
      refine Finset.sum_congr rfl fun k _ => ?_
      congr 2
      exact Finset.sum_congr rfl fun p hp => by beta_reduce; rw [ex p (Finset.mem_range.1 hp)]
    rw [es, key, sum_flat3]
    refine Finset.sum_congr rfl fun i _ => Finset.sum_congr rfl fun l' h' =>
      Finset.sum_congr rfl fun b _ => ?_
    have h' := Finset.mem_range.1 h'
    rw [flat2_at _ q hl, flat3_at _ i h']
  constructor
  · intro i l a hl
    rw [lifted (ir i) l a hl]
    have key := intertwine hI hI
      (fun r s => flat3 nb (fun i l a =>
        flat3 nb (fun i' l' b => w i * liftMatrix R ir w a (ir i) l i' l' b) s) r)
      (by
        intro r hr s hs
        obtain ⟨i, l, a, hl, rfl⟩ := split3 hr
        obtain ⟨i', l', b, hl', rfl⟩ := split3 hs
        rw [sum_flat3, sum_flat3]
        refine Eq.trans (b := reducedMatrix R ir w S i l a i' l' b) ?_ ?_
        · rw [← reduced_projection R ir h w hw S nb i l a i' l' hl' b]
          refine Finset.sum_congr rfl fun k _ => Finset.sum_congr rfl fun m hm =>
            Finset.sum_congr rfl fun c _ => ?_
          have hm := Finset.mem_range.1 hm
          rw [hMI i k l m a c hl hm, flat3_at _ k hm, flat3_at _ i' hl']
        · rw [← projection_reduced R ir h w hw S hS nb i l hl a i' l' b]
          refine Finset.sum_congr rfl fun k _ => Finset.sum_congr rfl fun m hm =>
            Finset.sum_congr rfl fun c _ => ?_
          have hm := Finset.mem_range.1 hm
          rw [hMI k i' m l' c b hm hl', flat3_at _ i hl, flat3_at _ k hm])
      f (flat3 nb fun i l a => w i * x (ir i) l a) ((i * nb + l) * 3 + (a : Nat))
      (at3_lt i.2 hl a)
    have ex : ∀ r < nI * nb * 3, (∑ j ∈ range (nI * nb * 3),
        flat3 nb (fun i l a =>
          flat3 nb (fun i' l' b => w i * liftMatrix R ir w a (ir i) l i' l' b) j) r *
          flat3 nb (fun i l a => w i * x (ir i) l a) j) =
        flat3 nb (fun i l a => w i * x (ir i) l a) r := by
      intro r hr
      obtain ⟨i, l, a, hl, rfl⟩ := split3 hr
      rw [sum_flat3, flat3_at _ i hl, ← lift_field R ir h w hw nb x hx a (ir i) l hl]
      rw [Finset.mul_sum]
      refine Finset.sum_congr rfl fun k _ => ?_
      rw [Finset.mul_sum]
      refine Finset.sum_congr rfl fun m hm => ?_
      rw [Finset.mul_sum]
      refine Finset.sum_congr rfl fun c _ => ?_
      have hm := Finset.mem_range.1 hm
      rw [flat3_at _ i hl, flat3_at _ k hm, flat3_at _ k hm]
      ring
    have es : spectral (nI * nb * 3) wI VI f (flat3 nb fun i l a => w i * x (ir i) l a)
          ((i * nb + l) * 3 + (a : Nat)) =
        spectral (nI * nb * 3) wI VI f (fun r => ∑ j ∈ range (nI * nb * 3),
          flat3 nb (fun i l a =>
            flat3 nb (fun i' l' b => w i * liftMatrix R ir w a (ir i) l i' l' b) j) r *
          flat3 nb (fun i l a => w i * x (ir i) l a) j) ((i * nb + l) * 3 + (a : Nat)) := by
      unfold spectral
      refine Finset.sum_congr rfl fun k _ => ?_
      congr 2
      exact Finset.sum_congr rfl fun p hp => by beta_reduce; rw [ex p (Finset.mem_range.1 hp)]
    rw [es, key, sum_flat3, Finset.mul_sum]
    refine Finset.sum_congr rfl fun k _ => ?_
    rw [Finset.mul_sum]
    refine Finset.sum_congr rfl fun m hm => ?_
    rw [Finset.mul_sum]
    refine Finset.sum_congr rfl fun c _ => ?_
    have hm := Finset.mem_range.1 hm
    rw [flat3_at _ i hl, flat3_at _ k hm]
    ring
  · intro g q l hl
    have e := lift_equivariant R ir w nb (fun i l' b =>
      spectral (nI * nb * 3) wI VI f (flat3 nb fun i l a => w i * x (ir i) l a)
        ((i * nb + l') * 3 + (b : Nat))) g q l
    simp only [lifted _ l _ hl]
    exact e

end
end Phono3py.Props
