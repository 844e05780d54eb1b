/-
Specification vocabulary for quadrature.
-/
import Mathlib.Algebra.Polynomial.Eval.Defs
import Mathlib.Data.Real.Basic

namespace Verif.Quad

open Polynomial

/-- What a rule (points, weights) makes of a function: the sum of weight times value. -/
def quad (r : List ℝ × List ℝ) (f : ℝ → ℝ) : ℝ := ((r.1.zip r.2).map fun gw => gw.2 * f gw.1).sum

/-- The sum of the absolute values of the coefficients. -/
noncomputable def coeffSum (p : ℝ[X]) : ℝ := ∑ k ∈ p.support, |p.coeff k|

/-- One point and one weight for each of `n`. -/
def HasSize (r : List ℝ × List ℝ) (n : Nat) : Prop := r.1.length = n ∧ r.2.length = n

end Verif.Quad
