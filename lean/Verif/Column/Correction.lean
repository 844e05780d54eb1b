/-
Model of the flux correction function (src/atm/FluxCorrectionFunction.cpp).

Simplifications: `double` is the real numbers and array indices are natural numbers.  LAPACK's `DGESV` is a parameter: it is
handed the size, the matrix as stored and the right-hand side.  `DGESV` reads the stored rows as columns (LinearAlgebra.cpp:92),
so equation `j` is `Σ i, dVan[i][j] * x[i] = dB[j]`.  The value at a node does not depend on the other nodes, so the result is
a function of the node.
-/
import Mathlib.Data.Real.Basic

namespace Verif.Column

/-- The linear solver of LAPACK as called through LinearAlgebra.cpp:69-106: size, stored matrix, right-hand side. -/
abbrev Dgesv := Nat → (Nat → Nat → ℝ) → (Nat → ℝ) → (Nat → ℝ)

/-- `dCoeff` after `k` passes, FluxCorrectionFunction.cpp:53-68. -/
noncomputable def derivCoeff (n : Nat) : Nat → Nat → ℝ
  | 0, _ => 1
  | k + 1, i => if i < n - k then ((n - k - i : Nat) : ℝ) * derivCoeff n k i else 0

/-- `dVan`, FluxCorrectionFunction.cpp:42-78: coefficient `i` in equation `j`, for type `t` and order `n`. -/
noncomputable def vandermondeEntry (t n i j : Nat) : ℝ :=
  if j = 0 then (-1) ^ (n - i)
  else if j ≤ t then derivCoeff n (j - 1) i
  else if (n - i + (j - t - 1)) % 2 = 0 then 2 / ((n - i + (j - t - 1) : Nat) + 1)
  else 0

/-- The right-hand side, FluxCorrectionFunction.cpp:40 and 50. -/
noncomputable def correctionRhs (j : Nat) : ℝ := if j = 0 then 1 else 0

/-- The sign change and the differentiation in place, FluxCorrectionFunction.cpp:85-94. -/
noncomputable def differentiate (n : Nat) (b : Nat → ℝ) : Nat → ℝ :=
  let c := fun i => b i * (-1) ^ (n - i)
  let d := (List.range n).foldl (fun c i => Function.update c (n - i) (((i + 1 : Nat) : ℝ) * c (n - i - 1))) c
  Function.update d 0 0

/-- The evaluation at a node, FluxCorrectionFunction.cpp:99-106: the running sum and the running power. -/
noncomputable def evalDeriv (n : Nat) (d : Nat → ℝ) (x : ℝ) : ℝ :=
  ((List.range n).foldl (fun s i => (s.1 + d (n - i) * s.2, s.2 * (2 * x - 1))) ((0 : ℝ), (1 : ℝ))).1 * 2

/-- What a call gives: an exception, a write outside the arrays, or the derivative at every node. -/
inductive Derivs where
  | exc
  | ub
  | ok (f : ℝ → ℝ)

/-- `FluxCorrectionFunction::GetDerivatives`, FluxCorrectionFunction.cpp:25-107.  With a type above the order line 59 writes
past the last column. -/
noncomputable def getDerivatives (solve : Dgesv) (t n : Nat) : Derivs :=
  if t < 1 then .exc
  else if n < 1 then .exc
  else if n < t then .ub
  else .ok (evalDeriv n (differentiate n (solve (n + 1) (vandermondeEntry t n) correctionRhs)))

end Verif.Column
