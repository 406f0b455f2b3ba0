/-
Interaction strengths written to files by one conductivity run and read by another (options `write_pp`
and `read_pp`, `--write-pp` and `--read-pp`).
-/
import Verif.Model.IseObject

namespace Phono3py

/-- `interaction_strength` and `zero_value_positions` of the `Interaction` object
(phono3py/phonon3/interaction.py:156-157, 208-217, 396-405). -/
structure PpAttributes (S Z : Type) where
  strength : Option S
  zero : Option Z

section
variable {P K S G Z A V : Type}

/-- The attributes after `Interaction.run`, phono3py/phonon3/interaction.py:181-204 and 976: a constant
strength leaves the flags as they were. -/
def ppRun (env : IseEnv P K S G Z A V) (constant : Bool) (p : P) (z : Option Z)
    (a : PpAttributes S Z) : PpAttributes S Z :=
  ⟨some (env.strengths p z), if constant then a.zero else z⟩

/-- The attributes after the lines that get the strengths for smearing width number `j`,
phono3py/conductivity/rta.py:250-285, in the same branches as `rtaStrengths`; strengths from a file are given to
the `Interaction` object without flags (phono3py/phonon3/imag_self_energy.py:319-324), averaged ones are not
given to it. -/
def ppStrengths (env : IseEnv P K S G Z A V) (o : GammaOptions P K S Z A) (p : P) (j : Nat)
    (sigma : Option K) (s : IseObject P K S G Z V) (a : PpAttributes S Z) : PpAttributes S Z :=
  if o.readPP then
    match o.file p sigma o.sigmaCutoff with
    | some f => ⟨some f.1, none⟩
    | none => a
  else if o.useAverages then a
  else if o.constant then ppRun env true p none a
  else if decide (j ≠ 0) && (o.isFullPP || o.sigmaCutoff.isNone) then a
  else ppRun env false p (if o.isFullPP then none else s.gZero) a

/-- The attributes after the loop over temperatures, phono3py/conductivity/rta.py:302-305: the first `run`
calculates all strengths if the self-energy object has none (phono3py/phonon3/imag_self_energy.py:105-108). -/
def ppTemperatures (env : IseEnv P K S G Z A V) (constant : Bool) (p : P) (temperatures : List K)
    (s : IseObject P K S G Z V) (a : PpAttributes S Z) : PpAttributes S Z :=
  if temperatures.isEmpty || s.strength.isSome then a else ppRun env constant p none a

/-- `_set_gamma_at_sigmas` of `rtaSigmas`, phono3py/conductivity/rta.py:233-314, with the attributes of the
`Interaction` object. -/
def ppSigmas [DecidableEq Z] (env : IseEnv P K S G Z A V) (o : GammaOptions P K S Z A) (p : P) :
    Nat → List (Option K) → IseObject P K S G Z V → A → PpAttributes S Z →
      Option (IseObject P K S G Z V × A × List (List V) × PpAttributes S Z)
  | _, [], s, ave, a => some (s, ave, [], a)
  | j, sigma :: sigmas, s, ave, a => do
    let s ← iseCall env s (.setSigma sigma o.sigmaCutoff)
    let s ← iseCall env s (.runIntegrationWeights none)
    let a := ppStrengths env o p j sigma s a
    let q ← rtaStrengths env o p j sigma s ave
    let a := ppTemperatures env o.constant p o.temperatures q.1 a
    let v ← gammaTemperatures env o.temperatures q.1
    let r ← ppSigmas env o p (j + 1) sigmas v.1 q.2 a
    some (r.1, r.2.1, v.2 :: r.2.2.1, r.2.2.2)

/-- The files `pp-*.hdf5` of a directory by grid point, smearing width and cutoff, which are in the names
(`write_pp_to_hdf5`, phono3py/file_IO.py:1196-1218; the selection of bands is not); `none` inside is a file without
strengths (1222-1223). -/
abbrev PpFiles (P K S Z : Type) := P → Option K → Option K → Option (Option (S × Option Z))

/-- `write_pp`, phono3py/conductivity/utils.py:958-992, after grid point `p`: one file, for the last smearing
width. Failure: there is no width (`sigmas[-1]`). -/
def ppWrite [DecidableEq P] [DecidableEq K] (o : GammaOptions P K S Z A) (p : P) (a : PpAttributes S Z)
    (d : PpFiles P K S Z) : Option (PpFiles P K S Z) :=
  o.sigmas.getLast?.map fun last => fun p' sigma cutoff =>
    if p' = p ∧ sigma = last ∧ cutoff = o.sigmaCutoff then some (a.strength.map fun v => (v, a.zero))
    else d p' sigma cutoff

/-- The loop `for i in br` with `write_pp`, phono3py/conductivity/rta.py:1079-1083; with linewidths read from files
nothing is calculated (203-206). -/
def ppWriteRun [DecidableEq P] [DecidableEq K] [DecidableEq Z] (env : IseEnv P K S G Z A V)
    (o : GammaOptions P K S Z A) (readGamma : Bool) :
    List (P × A) → IseObject P K S G Z V → PpAttributes S Z → PpFiles P K S Z →
      Option (List (List (List V)) × PpFiles P K S Z)
  | [], _, _, d => some ([], d)
  | p :: ps, s, a, d =>
    if readGamma && !o.useAverages then do
      let d ← ppWrite o p.1 a d
      let q ← ppWriteRun env o readGamma ps s a d
      some ([] :: q.1, q.2)
    else do
      let s ← iseCall env s (.setGridPoint (some p.1))
      let r ← ppSigmas env o p.1 0 o.sigmas s p.2 a
      let d ← ppWrite o p.1 r.2.2.2 d
      let q ← ppWriteRun env o readGamma ps r.1 r.2.2.2 d
      some (r.2.2.1 :: q.1, q.2)

/-- What a later run with `read_pp` finds in the directory: `read_pp_from_hdf5`, phono3py/file_IO.py:1286-1350; no
file, or a file without strengths, ends in an exception (phono3py/conductivity/rta.py:251, phono3py/file_IO.py:1343).
The stored strengths under flags are zeros when read; they are those calculated with the flags
(phono3py/phonon3/interaction.py:194), so the array is the stored one (C44). -/
def readsFrom (o : GammaOptions P K S Z A) (d : PpFiles P K S Z) : GammaOptions P K S Z A :=
  { o with readPP := true, file := fun p sigma cutoff => (d p sigma cutoff).bind id }

end
end Phono3py
