/-
Model of the variational derivative from levels to interfaces (src/atm/LinearColumnOperatorFEM.cpp).

Simplifications: as in `Verif.Column.Fem`.  The loops over elements write each coefficient at most once, so the coefficient
is given by the element of its level; the ranges are those the last element to set them sets.  `gauss` and `lobatto` are
the rules on [-1, 1] of `order` and `order + 1` points that the two `GetPoints` start from.
-/
import Verif.Column.Fem
import Verif.Quad.Model

namespace Verif.Column

open Verif.Interp Verif.Quad

/-- The Gauss points of an element, LinearColumnOperatorFEM.cpp:842-850. -/
noncomputable def gaussPoint (n : Nat) (edge : Nat → ℝ) (gauss : List ℝ × List ℝ) (a i : Nat) : ℝ :=
  (rescale (edge (a * n)) (edge ((a + 1) * n)) gauss).1.getD i 0

/-- The Gauss weights of an element. -/
noncomputable def gaussWeight (n : Nat) (edge : Nat → ℝ) (gauss : List ℝ × List ℝ) (a i : Nat) : ℝ :=
  (rescale (edge (a * n)) (edge ((a + 1) * n)) gauss).2.getD i 0

/-- The Gauss-Lobatto weights on the reference element, LinearColumnOperatorFEM.cpp:852-857. -/
noncomputable def lobattoWeight (lobatto : List ℝ × List ℝ) (j : Nat) : ℝ := (rescale 0 1 lobatto).2.getD j 0

/-- `dWLlocal`, LinearColumnOperatorFEM.cpp:873-887; `m` is the number of elements. -/
noncomputable def localArea (n m : Nat) (edge : Nat → ℝ) (lobatto : List ℝ × List ℝ) (a j : Nat) : ℝ :=
  let w0 := lobattoWeight lobatto j * (edge ((a + 1) * n) - edge (a * n))
  let w1 := if j = 0 ∧ a ≠ 0 then w0 + lobattoWeight lobatto n * (edge (a * n) - edge ((a - 1) * n)) else w0
  if j = n ∧ a ≠ m - 1 then w1 + lobattoWeight lobatto 0 * (edge ((a + 2) * n) - edge ((a + 1) * n)) else w1

/-- The coefficient of an interface and a level, LinearColumnOperatorFEM.cpp:859-896. -/
noncomputable def varCoeff (n m : Nat) (edge : Nat → ℝ) (gauss lobatto : List ℝ × List ℝ) (jx ix : Nat) : ℝ :=
  let a := ix / n
  let i := ix % n
  if a < m ∧ a * n ≤ jx ∧ jx ≤ a * n + n then
    -(diffCoeffs (n + 1) (fun t => edge (a * n + t)) (gaussPoint n edge gauss a i)).getD (jx - a * n) 0 *
      gaussWeight n edge gauss a i / localArea n m edge lobatto a (jx - a * n)
  else 0

/-- The range of an interface row, LinearColumnOperatorFEM.cpp:898-914. -/
def varRange (n m jx : Nat) : Nat × Nat :=
  let a := jx / n
  if m * n < jx ∨ m = 0 then (0, 0)
  else if jx % n ≠ 0 then (a * n, (a + 1) * n)
  else if a = 0 then (0, n)
  else if a = m then ((a - 1) * n, a * n)
  else ((a - 1) * n, (a + 1) * n)

/-- `LinearColumnDiffFEM::InitializeVariationalNodeToREdge`, LinearColumnOperatorFEM.cpp:814-920.  The elements must be
inside the interfaces. -/
noncomputable def variationalInit (n N nEdge : Nat) (edge : Nat → ℝ) (gauss lobatto : List ℝ × List ℝ) : Res :=
  if n = 0 then .ub
  else if N = 0 then .exc
  else if nEdge = 0 then .exc
  else if nEdge < N / n * n + 1 then .ub
  else .ok ⟨nEdge, N, fun jx =>
    ⟨varCoeff n (N / n) edge gauss lobatto jx, (varRange n (N / n) jx).1, (varRange n (N / n) jx).2⟩⟩

end Verif.Column
