/-
Specification of the Legendre polynomials.
-/
import Mathlib.Algebra.Polynomial.Derivative
import Mathlib.Data.Real.Basic

namespace Verif.Legendre

open Polynomial

/-- Legendre polynomials by Bonnet's recurrence. -/
noncomputable def legendre : Nat → ℝ[X]
  | 0 => 1
  | 1 => X
  | n + 2 => C ((2 * (n : ℝ) + 3) / (n + 2)) * X * legendre (n + 1) - C (((n : ℝ) + 1) / (n + 2)) * legendre n

end Verif.Legendre
