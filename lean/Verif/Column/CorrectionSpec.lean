/-
Specification vocabulary for the flux correction function.
-/
import Mathlib.MeasureTheory.Integral.IntervalIntegral.Basic
import Mathlib.Algebra.Polynomial.Eval.Degree

namespace Verif.Column

open Polynomial

/-- A correct linear solver: whenever the homogeneous system has only the zero solution, the result solves the system (as
LAPACK's `DGESV` does, up to rounding). -/
def Solves (solve : Nat → (Nat → Nat → ℝ) → (Nat → ℝ) → (Nat → ℝ)) : Prop :=
  ∀ (n : Nat) (A : Nat → Nat → ℝ) (b : Nat → ℝ),
    (∀ c : Nat → ℝ, (∀ j < n, ∑ i ∈ Finset.range n, A i j * c i = 0) → ∀ i < n, c i = 0) →
    ∀ j < n, ∑ i ∈ Finset.range n, A i j * solve n A b i = b j

/-- The flux correction function of type `t` and order `n` on [0, 1]: a polynomial of degree at most `n` that is 1 at the right
end, has a zero of multiplicity `t` at the left end and is perpendicular to all polynomials of degree below `n - t`. -/
def IsCorrection (t n : Nat) (g : ℝ[X]) : Prop :=
  g.degree ≤ n ∧ g.eval 1 = 1 ∧ X ^ t ∣ g ∧ ∀ p : ℝ[X], p.degree < (n - t : ℕ) → ∫ x in (0 : ℝ)..1, g.eval x * p.eval x = 0

end Verif.Column
