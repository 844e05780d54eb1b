/-
Specification vocabulary for the discontinuous penalty operator.
-/
import Mathlib.MeasureTheory.Integral.IntervalIntegral.Basic
import Mathlib.Algebra.Polynomial.Eval.Degree
import Verif.Quad.Spec

namespace Verif.Column

open Polynomial Verif.Quad

/-- A Gauss rule on [-1, 1]: `n` points, exact for polynomials of degree below `2 n`. -/
def GaussRule (n : Nat) (gauss : List ℝ × List ℝ) : Prop :=
  HasSize gauss n ∧ ∀ p : ℝ[X], p.degree < (2 * n : ℕ) → quad gauss (fun x => p.eval x) = ∫ x in (-1 : ℝ)..1, p.eval x

/-- The `n` levels of each of the `m` elements are the Gauss points between its edges `edge (a n) < edge ((a + 1) n)`. -/
def OnGauss (n m : Nat) (node edge : Nat → ℝ) (gauss : List ℝ × List ℝ) : Prop :=
  ∀ a < m, edge (a * n) < edge ((a + 1) * n) ∧
    ∀ i < n, node (a * n + i) = edge (a * n) + (edge ((a + 1) * n) - edge (a * n)) * ((gauss.1.getD i 0 + 1) / 2)

/-- The weight of level `k` in the integral over the column. -/
noncomputable def levelWeight (n : Nat) (edge : Nat → ℝ) (gauss : List ℝ × List ℝ) (k : Nat) : ℝ :=
  (edge ((k / n + 1) * n) - edge (k / n * n)) / 2 * gauss.2.getD (k % n) 0

/-- The jump over the edge between elements `a` and `a + 1` of the polynomials `p` of the elements. -/
noncomputable def jump (n : Nat) (edge : Nat → ℝ) (p : Nat → ℝ[X]) (a : Nat) : ℝ :=
  (p (a + 1)).eval (edge ((a + 1) * n)) - (p a).eval (edge ((a + 1) * n))

end Verif.Column
