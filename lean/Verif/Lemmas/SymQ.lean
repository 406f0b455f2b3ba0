/- The symmetrised interaction strength, with an uninitialised buffer. -/
import Verif.Lemmas.Strength
import Mathlib.Tactic.FinCases

set_option linter.unusedSectionVars false

namespace Phono3py
open Spec

section
variable {K : Type _} [Field K] [LinearOrder K] [IsStrictOrderedRing K]

theorem symq_value (sqrt : K → K) (expi : K → Cplx K) (c : Crystal K) (gZero : Int → Bool)
    (freqs : Fin 3 → Int → K) (eigvecs : Fin 3 → Int → Cplx K) (q : Fin 3 → Q3 K) (mem : Int → K)
    (hband : ∀ b < c.numBand, c.bandIndices b = b) (band : Fin 3 → Nat)
    (hb : ∀ m, band m < c.numBand) :
    realToNormalSymQ sqrt expi c c.numBand (setGPos c.numBand c.numBand gZero) freqs eigvecs q mem
      (at3 c.numBand c.numBand (band 0) (band 1) (band 2) : Nat) =
    ∑ σ : Equiv.Perm (Fin 3),
      (if gZero (at3 c.numBand c.numBand (band (σ 0)) (band (σ 1)) (band (σ 2)) : Nat) then
        mem (at3 c.numBand c.numBand (band (σ 0)) (band (σ 1)) (band (σ 2)) : Nat)
      else strengthOf sqrt expi c (fun m => freqs (σ m)) (fun m => eigvecs (σ m)) (fun m => q (σ m))
        (fun m => band (σ m))) / 6 := by
  set nb := c.numBand with hnb
  let P : (Int → K) → Prop := fun s => ∀ a < nb, ∀ b < nb, ∀ d < nb,
    gZero (at3 nb nb a b d : Nat) = true → s (at3 nb nb a b d : Nat) = mem (at3 nb nb a b d : Nat)
  let ex : (Int → K) → (Fin 3 → Fin 3) → Int → K := fun s x =>
    runWrites s (realToNormal sqrt expi c (setGPos nb nb gZero) (fun j => freqs (x j))
      (fun j => eigvecs (x j)) (fun j => q (x j)))
  let add : (Int → K) → (Fin 3 → Fin 3) → List (Int × K) := fun e x =>
    loop nb fun j => loop nb fun k => loop nb fun l =>
      [(((j * nb * nb + k * nb + l : Nat) : Int),
        e (((![c.bandIndices j, k, l] : Fin 3 → Nat) (x 0) * nb * nb +
          (![c.bandIndices j, k, l] : Fin 3 → Nat) (x 1) * nb +
          (![c.bandIndices j, k, l] : Fin 3 → Nat) (x 2) : Nat) : Int) / 6)]
  have exv : ∀ (s : Int → K) (x : Fin 3 → Fin 3), ∀ a < nb, ∀ b < nb, ∀ d < nb,
      ex s x (at3 nb nb a b d : Nat) = if gZero (at3 nb nb a b d : Nat) then
        s (at3 nb nb a b d : Nat) else strengthOf sqrt expi c (fun m => freqs (x m))
          (fun m => eigvecs (x m)) (fun m => q (x m)) ![a, b, d] := by
    intro s x a ha b hb d hd
    show runWrites s (realToNormal _ _ _ _ _ _ _) _ = _
    rw [realToNormal_eq, gPos_stores nb nb gZero _ s ha hb hd]
    simp only [hband a ha]
  have key : ∀ s, P s → realToNormalSymQ sqrt expi c nb (setGPos nb nb gZero) freqs eigvecs q s
      (at3 nb nb (band 0) (band 1) (band 2) : Nat) = 0 + (indexExchange.map fun x =>
      (if gZero (at3 nb nb (band (x 0)) (band (x 1)) (band (x 2)) : Nat) then
        mem (at3 nb nb (band (x 0)) (band (x 1)) (band (x 2)) : Nat)
      else strengthOf sqrt expi c (fun m => freqs (x m)) (fun m => eigvecs (x m)) (fun m => q (x m))
        (fun m => band (x m))) / 6).sum := by
    intro s hs
    refine symq_fold ex add indexExchange (fun _ => 0) s _ _ P hs ?_ ?_
    · intro s x hs a ha b hb d hd h
      rw [exv s x a ha b hb d hd, if_pos h, hs a ha b hb d hd h]
    · intro s x hs _
      show addsAt (loop nb fun j => loop nb fun k => loop nb fun l => _) _ = _
      rw [triple_loop_adds nb nb (fun j k l => ex s x
        (((![c.bandIndices j, k, l] : Fin 3 → Nat) (x 0) * nb * nb +
          (![c.bandIndices j, k, l] : Fin 3 → Nat) (x 1) * nb +
          (![c.bandIndices j, k, l] : Fin 3 → Nat) (x 2) : Nat) : Int) / 6) (hb 0) (hb 1) (hb 2)]
      have e : (![c.bandIndices (band 0), band 1, band 2] : Fin 3 → Nat) = band := by
        funext m
        fin_cases m
        · exact hband _ (hb 0)
        · rfl
        · rfl
      beta_reduce
      rw [e, show band (x 0) * nb * nb + band (x 1) * nb + band (x 2) =
        at3 nb nb (band (x 0)) (band (x 1)) (band (x 2)) by unfold at3; ring,
        exv s x _ (hb _) _ (hb _) _ (hb _)]
      have e3 : (![band (x 0), band (x 1), band (x 2)] : Fin 3 → Nat) = fun m => band (x m) := by
        funext m
        fin_cases m <;> rfl
      rw [e3]
      by_cases h : gZero (at3 nb nb (band (x 0)) (band (x 1)) (band (x 2)) : Nat) = true
      · rw [if_pos h, if_pos h, hs _ (hb _) _ (hb _) _ (hb _) h]
      · rw [if_neg h, if_neg h]
  rw [key mem (fun _ _ _ _ _ _ _ => rfl), zero_add, sum_indexExchange]

/-- With a single selected band other than the first, the exchanges read the buffer at a place
that is never written. -/
theorem symq_subset (sqrt : K → K) (expi : K → Cplx K) (c : Crystal K)
    (gPos : List GPos) (hg : ∀ p ∈ gPos, p.pos < c.numBand * c.numBand)
    (freqs : Fin 3 → Int → K) (eigvecs : Fin 3 → Int → Cplx K) (q : Fin 3 → Q3 K) (mem : Int → K)
    (b : Nat) (h0 : 0 < b) (hb : b < c.numBand) (hc : c.bandIndices 0 = b) :
    realToNormalSymQ sqrt expi c 1 gPos freqs eigvecs q mem
      (at3 c.numBand c.numBand 0 b b : Nat) = mem (at3 c.numBand c.numBand b b b : Nat) := by
  set nb := c.numBand with hnb
  let P : (Int → K) → Prop := fun s => s (at3 nb nb b b b : Nat) = mem (at3 nb nb b b b : Nat)
  let ex : (Int → K) → (Fin 3 → Fin 3) → Int → K := fun s x =>
    runWrites s (realToNormal sqrt expi c gPos (fun j => freqs (x j))
      (fun j => eigvecs (x j)) (fun j => q (x j)))
  let add : (Int → K) → (Fin 3 → Fin 3) → List (Int × K) := fun e x =>
    loop 1 fun j => loop nb fun k => loop nb fun l =>
      [(((j * nb * nb + k * nb + l : Nat) : Int),
        e (((![c.bandIndices j, k, l] : Fin 3 → Nat) (x 0) * nb * nb +
          (![c.bandIndices j, k, l] : Fin 3 → Nat) (x 1) * nb +
          (![c.bandIndices j, k, l] : Fin 3 → Nat) (x 2) : Nat) : Int) / 6)]
  have hP : ∀ s x, P s → P (ex s x) := by
    intro s x hs
    show runWrites s (realToNormal _ _ _ _ _ _ _) _ = _
    rw [realToNormal_eq, runWrites_untouched]
    · exact hs
    · intro w hw e
      obtain ⟨p, hp, rfl⟩ := List.mem_map.1 hw
      have h1 := hg p hp
      have h2 : p.pos = at3 nb nb b b b := Int.ofNat.inj e
      have h3 : nb * nb ≤ at3 nb nb b b b := by
        unfold at3
        have : nb * nb ≤ b * nb * nb := by
          rw [mul_assoc]; exact Nat.le_mul_of_pos_left _ h0
        rw [add_mul]
        omega
      omega
  have key : realToNormalSymQ sqrt expi c 1 gPos freqs eigvecs q mem
      (at3 nb nb 0 b b : Nat) = 0 + (indexExchange.map fun _ =>
      mem (at3 nb nb b b b : Nat) / 6).sum := by
    refine symq_fold ex add indexExchange (fun _ => 0) mem _ _ P rfl hP ?_
    intro s x hs _
    show addsAt (loop 1 fun j => loop nb fun k => loop nb fun l => _) _ = _
    rw [triple_loop_adds 1 nb (fun j k l => ex s x
      (((![c.bandIndices j, k, l] : Fin 3 → Nat) (x 0) * nb * nb +
        (![c.bandIndices j, k, l] : Fin 3 → Nat) (x 1) * nb +
        (![c.bandIndices j, k, l] : Fin 3 → Nat) (x 2) : Nat) : Int) / 6) Nat.one_pos hb hb]
    beta_reduce
    have e : (![c.bandIndices 0, b, b] : Fin 3 → Nat) = fun _ => b := by
      funext m
      fin_cases m
      · exact hc
      · rfl
      · rfl
    rw [e, show b * nb * nb + b * nb + b = at3 nb nb b b b by unfold at3; ring, hP s x hs]
  rw [key]
  simp [indexExchange]
  ring

end
end Phono3py
