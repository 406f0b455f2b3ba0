import Verif.Model.Interaction

/-!
# Triples of atoms whose three distances are all shortest

Model of `Interaction._get_all_shortest`.
-/

namespace Phono3py

section
variable {K : Type} [Field K] [LinearOrder K] [IsStrictOrderedRing K]

/-- `np.linalg.norm(v @ lattice)`, phono3py/phonon3/interaction.py:1079-1082: the rows of `lattice`
are the basis vectors of the primitive cell.  The square root is a parameter. -/
def latticeNorm (sqrt : K → K) (lattice : Fin 3 → Fin 3 → K) (v : Q3 K) : K :=
  sqrt (((v 0 * lattice 0 0 + v 1 * lattice 1 0 + v 2 * lattice 2 0) *
      (v 0 * lattice 0 0 + v 1 * lattice 1 0 + v 2 * lattice 2 0)) +
    ((v 0 * lattice 0 1 + v 1 * lattice 1 1 + v 2 * lattice 2 1) *
      (v 0 * lattice 0 1 + v 1 * lattice 1 1 + v 2 * lattice 2 1)) +
    ((v 0 * lattice 0 2 + v 1 * lattice 1 2 + v 2 * lattice 2 2) *
      (v 0 * lattice 0 2 + v 1 * lattice 1 2 + v 2 * lattice 2 2)))

/-- `multi[s, i]`, an array of shape `(n_satom, n_patom, 2)`,
phono3py/phonon3/interaction.py:1059. -/
def multiAt (at' : AtomTriplets K) (s i : Nat) : Nat × Int :=
  at'.multiplicity (s * at'.numPatom + i)

/-- Body of the innermost loop, phono3py/phonon3/interaction.py:1070-1084, for the permutation
`perm` that takes `j` into the primitive cell: the stores into `all_shortest`. -/
def shortestStoreAt (sqrt : K → K) (at' : AtomTriplets K) (lattice : Fin 3 → Fin 3 → K) (symprec : K)
    (perm : Nat → Nat) (i j jp k : Nat) : List (Int × Bool) :=
  if (multiAt at' k i).1 > 1 then []
  else if (multiAt at' (perm k) jp).1 > 1 then []
  else
    let vecJk : Q3 K := fun d =>
      at'.svecs (multiAt at' k i).2 d - at'.svecs (multiAt at' j i).2 d
    if |latticeNorm sqrt lattice (at'.svecs (multiAt at' (perm k) jp).2) -
        latticeNorm sqrt lattice vecJk| < symprec then
      [((i * at'.numSatom * at'.numSatom + j * at'.numSatom + k : Nat), true)]
    else []

/-- Body of the loop over `i_patom` and `j_atom`, phono3py/phonon3/interaction.py:1065-1084; `none`
is the failing assertion of line 1069.  `p2p` is `primitive.p2p_map`. -/
def shortestStoresOf (sqrt : K → K) (at' : AtomTriplets K) (p2p : Int → Nat)
    (perms : List (Nat → Nat)) (lattice : Fin 3 → Fin 3 → K) (symprec : K) (i j : Nat) :
    Option (List (Int × Bool)) :=
  if (multiAt at' j i).1 > 1 then some []
  else
    match perms.filter (fun g => decide ((g j : Int) = at'.p2s (p2p (at'.s2p j)))) with
    | [g] => some (loop at'.numSatom fun k =>
        shortestStoreAt sqrt at' lattice symprec g i j (p2p (at'.s2p j)) k)
    | _ => none

/-- `Interaction._get_all_shortest`, phono3py/phonon3/interaction.py:1049-1084, on the array of
zeros of phono3py/phonon3/interaction.py:176-178; `none` when the assertion fails. -/
def getAllShortest (sqrt : K → K) (at' : AtomTriplets K) (p2p : Int → Nat)
    (perms : List (Nat → Nat)) (lattice : Fin 3 → Fin 3 → K) (symprec : K) :
    Option (Int → Bool) :=
  ((List.range (at'.numPatom * at'.numSatom)).mapM fun ij =>
      shortestStoresOf sqrt at' p2p perms lattice symprec (ij / at'.numSatom)
        (ij % at'.numSatom)).map fun stores =>
    runWrites (fun _ => false) stores.flatten

end
end Phono3py
