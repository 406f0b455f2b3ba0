/- Sets of degenerate bands. -/
import Mathlib.Algebra.Order.Field.Basic
import Mathlib.Algebra.BigOperators.Group.Finset.Basic

namespace Phono3py.Spec

/-- The sets cover the selected bands and do not overlap. -/
structure DegenerateSets (sets : List (List Nat)) (bands : List Nat) : Prop where
  cover : ∀ b ∈ bands, ∃ s ∈ sets, b ∈ s
  disjoint : sets.Pairwise fun s t => ∀ b ∈ s, b ∉ t

/-- Positions of the selected bands degenerate with the band at position `i`. -/
def degenerateWith (sets : List (List Nat)) (bands : List Nat) (i : Nat) : Finset Nat :=
  (Finset.range bands.length).filter fun j =>
    ∃ s ∈ sets, bands.getD i 0 ∈ s ∧ bands.getD j 0 ∈ s

/-- Average of the values over a set of positions. -/
def mean {K : Type _} [Field K] (s : Finset Nat) (x : Nat → K) : K := (∑ j ∈ s, x j) / s.card

end Phono3py.Spec
