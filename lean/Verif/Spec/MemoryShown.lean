/-
Memory of arrays.
-/
import Mathlib.Algebra.BigOperators.Group.List.Defs
import Verif.Model.MemoryShown

namespace Phono3py.MemoryShown

/-- Bytes of an array. -/
def bytes (a : NumpyArray) : Nat := a.item * a.shape.prod

/-- Bytes of several arrays. -/
def totalBytes (l : List NumpyArray) : Nat := (l.map bytes).sum

end Phono3py.MemoryShown
