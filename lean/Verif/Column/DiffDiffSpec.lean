/-
Specification vocabulary for the second derivative of a column.
-/
import Mathlib.Algebra.Polynomial.Derivative
import Verif.Column.FluxSpec

namespace Verif.Column

open Polynomial

/-- Minus the gradients of two piecewise polynomials multiplied and integrated over the column: what the second derivative of
the one, tested with the other, is in a column without fluxes over its ends. -/
noncomputable def weakSecond (n m : Nat) (edge : Nat → ℝ) (q p : Nat → ℝ[X]) : ℝ :=
  -∑ a ∈ Finset.range m, ∫ s in edge (a * n)..edge ((a + 1) * n), (derivative (q a)).eval s * (derivative (p a)).eval s

/-- The mean of the slopes on both sides of the edge between elements `a` and `a + 1`. -/
noncomputable def meanSlope (n : Nat) (edge : Nat → ℝ) (p : Nat → ℝ[X]) (a : Nat) : ℝ :=
  ((derivative (p a)).eval (edge ((a + 1) * n)) + (derivative (p (a + 1))).eval (edge ((a + 1) * n))) / 2

end Verif.Column
