/- Flat positions in C-contiguous (row-major) arrays. -/

namespace Phono3py.Spec

/-- Position in an array of shape `(n, m)`. -/
def at2 (m i j : Nat) : Nat := i * m + j

/-- Position in an array of shape `(n, m, l)`. -/
def at3 (m l i j k : Nat) : Nat := (i * m + j) * l + k

/-- Position in an array of shape `(n0, n1, n2, n3)`. -/
def at4 (n1 n2 n3 a b c d : Nat) : Nat := ((a * n1 + b) * n2 + c) * n3 + d

/-- Position in an array of shape `(n0, n1, n2, n3, n4)`. -/
def at5 (n1 n2 n3 n4 a b c d e : Nat) : Nat := (((a * n1 + b) * n2 + c) * n3 + d) * n4 + e

end Phono3py.Spec
