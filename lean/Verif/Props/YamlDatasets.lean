import Verif.Spec.YamlDatasets

/-!
# C163: the datasets for fc3 and fc2 after saving and loading
-/

namespace Phono3py.Props

open Phono3py

variable {A B C F2 F3 : Type}

/-- **C163**. Both datasets are saved and loaded: fc3 of any kind, fc2 without pairs. Each comes
back as it was, and neither is taken for the other. -/
theorem C163_both_partial (natom : Nat) (pnatom : Option Nat) (d p : StoredSet A B C)
    (hd : MadeFor (some natom) d) (hp : MadeFor pnatom p) (hn : NoPairs p) :
    loadFc3Set (saveDatasets natom pnatom (some d) (some p)) = some d ∧
    loadPhononSet (saveDatasets natom pnatom (some d) (some p)) = some p := by
  cases p with
  | pairs n a => exact hn.elim
  | singles n b =>
    cases hp
    cases d with
    | pairs m a => cases hd; exact ⟨rfl, by cases pnatom <;> rfl⟩
    | singles m a => cases hd; exact ⟨rfl, by cases pnatom <;> rfl⟩
    | all c => exact ⟨rfl, by cases pnatom <;> rfl⟩
  | all c =>
    cases d with
    | pairs m a => cases hd; exact ⟨rfl, by cases pnatom <;> rfl⟩
    | singles m a => cases hd; exact ⟨rfl, by cases pnatom <;> rfl⟩
    | all c => exact ⟨rfl, by cases pnatom <;> rfl⟩

/-- **C163**. A dataset for fc2 alone comes back, and none for fc3 is made from it. -/
theorem C163_fc2_only (natom : Nat) (pnatom : Option Nat) (p : StoredSet A B C)
    (hp : MadeFor pnatom p) (hn : NoPairs p) :
    loadFc3Set (saveDatasets natom pnatom none (some p)) = none ∧
    loadPhononSet (saveDatasets natom pnatom none (some p)) = some p := by
  cases p with
  | pairs n a => exact hn.elim
  | singles n b => cases hp; exact ⟨rfl, by cases pnatom <;> rfl⟩
  | all c => exact ⟨rfl, by cases pnatom <;> rfl⟩

/-- **C163**. A dataset for fc3 alone comes back in every case. No dataset for fc2 is made from it
if there is no supercell for fc2 or the dataset has pairs. -/
theorem C163_fc3_only_partial (natom : Nat) (pnatom : Option Nat) (d : StoredSet A B C)
    (hd : MadeFor (some natom) d) :
    loadFc3Set (saveDatasets natom pnatom (some d) none) = some d ∧
    (pnatom = none ∨ HasPairs d → loadPhononSet (saveDatasets natom pnatom (some d) none) = none) := by
  cases d with
  | pairs m a => cases hd; exact ⟨rfl, fun _ => by cases pnatom <;> rfl⟩
  | singles m a =>
    cases hd
    refine ⟨rfl, fun h => ?_⟩
    rcases h with rfl | h
    · rfl
    · exact h.elim
  | all c =>
    refine ⟨rfl, fun h => ?_⟩
    rcases h with rfl | h
    · rfl
    · exact h.elim

/-- **C163**, what fails. With a supercell for fc2 and no dataset for it, displacements for fc3 that are no pairs come back as the
dataset for fc2 as well, although they are displacements in the other supercell. -/
theorem C163_taken_for_fc2 (natom pnatom : Nat) (b : B) (c : C) :
    loadPhononSet (saveDatasets natom (some pnatom) (some (.all c : StoredSet A B C)) none) =
      some (.all c) ∧
    loadPhononSet (saveDatasets natom (some pnatom)
      (some (.singles (some natom) b : StoredSet A B C)) none) = some (.singles (some pnatom) b) :=
  ⟨rfl, rfl⟩

/-- **C163**, what fails. So also when the forces for fc2 are in a file: the dataset has forces, so
that FORCES_FC2, or the file named in the call of `load`, is not looked at. -/
theorem C163_file_ignored (e : LoadEnv F2 F3 (StoredSet A B C))
    (dir : Directory F2 F3 (StoredSet A B C)) (natom pnatom : Nat) (c : C) (arg : Option ForcesArg)
    (hf : e.hasForces (.all c) = true) (hn : e.natomOf (.all c) = none) (hc : e.convert = none) :
    selectPhononDataset e dir
      (some ⟨loadFc3Set (saveDatasets natom (some pnatom) (some (.all c)) none),
        loadPhononSet (saveDatasets natom (some pnatom) (some (.all c)) none), true⟩) arg =
      some (some (.all c)) := by
  have h1 : loadPhononSet (saveDatasets natom (some pnatom) (some (.all c : StoredSet A B C)) none) =
    some (.all c) := rfl
  unfold selectPhononDataset
  simp only [h1, Option.bind_some, hf, if_true]
  have hp : ∀ f, parseForces e dir false (some ⟨loadFc3Set (saveDatasets natom (some pnatom)
      (some (.all c : StoredSet A B C)) none), some (.all c), true⟩) f = some (.all c) := by
    intro f
    cases f with
    | none => simp [parseForces, extractDataset, hc, hn]
    | some f => simp [parseForces, extractDataset, hf, hc, hn]
  simp only [hp, Option.map_some]
  split <;> simp_all

/-- **C163**. Displacements for fc2 under the key `displacements`, as older versions wrote them and
as `--fs2f2` prints them, are read for fc2 when there is a supercell for fc2 and the file has pairs
for fc3. -/
theorem C163_old_key (natom pnatom : Nat) (a : A) (b : B) :
    loadPhononSet (⟨[(.displacements, .singles b), (.displacementPairs, .pairs a)], natom,
      some pnatom⟩ : DatasetYaml A B C) = some (.singles (some pnatom) b) ∧
    loadFc3Set (⟨[(.displacements, .singles b), (.displacementPairs, .pairs a)], natom,
      some pnatom⟩ : DatasetYaml A B C) = some (.pairs (some natom) a) := ⟨rfl, rfl⟩

/-- **C163**, what fails. In a file with displacements of all atoms for fc3 the lines printed by
`--fs2f2` have no effect: the displacements for fc3 are read for fc2. -/
theorem C163_old_key_lost (natom pnatom : Nat) (b : B) (c : C) :
    loadPhononSet (⟨[(.displacements, .singles b), (.displacements, .all c)], natom,
      some pnatom⟩ : DatasetYaml A B C) = some (.all c) := rfl

/-- **C163**, what fails. Pairs in the dataset for fc2 are written under the key for fc3: they are
lost for fc2, and with displacements of all atoms for fc3 they are read for fc3. -/
theorem C163_fc2_pairs (natom pnatom n : Nat) (a : A) (d : StoredSet A B C) :
    (HasPairs d →
      loadPhononSet (saveDatasets natom (some pnatom) (some d) (some (.pairs (some n) a))) = none) ∧
    ∀ c : C, loadFc3Set (saveDatasets natom (some pnatom) (some (.all c : StoredSet A B C))
      (some (.pairs (some n) a))) = some (.pairs (some natom) a) := by
  refine ⟨fun h => ?_, fun _ => rfl⟩
  cases d with
  | pairs m a => rfl
  | singles m a => exact h.elim
  | all c => exact h.elim

/-! ## A concrete case -/

/-- The hypotheses of `C163_both_partial` are met: pairs in a supercell with 16 atoms, single
displacements in one with 128. -/
example : loadFc3Set (saveDatasets 16 (some 128) (some (.pairs (some 16) 5 : StoredSet Nat Nat Nat))
      (some (.singles (some 128) 7))) = some (.pairs (some 16) 5) ∧
    loadPhononSet (saveDatasets 16 (some 128) (some (.pairs (some 16) 5 : StoredSet Nat Nat Nat))
      (some (.singles (some 128) 7))) = some (.singles (some 128) 7) :=
  C163_both_partial 16 (some 128) _ _ rfl rfl trivial

/-- An object in which displacements of all atoms carry forces (`C163_file_ignored`). -/
def allHaveForces : LoadEnv Unit Unit (StoredSet Nat Nat Nat) where
  hasForces d := match d with
    | .all _ => true
    | _ => false
  natomOf d := match d with
    | .pairs n _ => n
    | .singles n _ => n
    | .all _ => none
  convert := none
  fc2Fits _ := true
  fc3Fits _ := true
  natom := 16
  pnatom := 128
  phononMatrix := true
  solve3 _ := none
  solve2 _ := none

/-- Without the loaded dataset for fc2, FORCES_FC2 is what is read; with it, it is not. -/
example : selectPhononDataset allHaveForces
      (fun f => if f = "FORCES_FC2" then some (.forces2 (.all 2)) else none)
      (some ⟨some (.all 1), none, true⟩) none = some (some (.all 2)) ∧
    selectPhononDataset allHaveForces
      (fun f => if f = "FORCES_FC2" then some (.forces2 (.all 2)) else none)
      (some ⟨loadFc3Set (saveDatasets 16 (some 128) (some (.all 1)) none),
        loadPhononSet (saveDatasets 16 (some 128) (some (.all 1)) none), true⟩) none =
      some (some (.all 1)) := by
  constructor <;> rfl

end Phono3py.Props
