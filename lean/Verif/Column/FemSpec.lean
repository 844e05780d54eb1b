/-
Specification vocabulary for the finite element column operators.
-/
import Mathlib.Algebra.Polynomial.Derivative
import Verif.Column.Fem

namespace Verif.Column

open Polynomial

/-- The location is in element `a` of `m`, at least a tolerance away from the inner element edges: `bnd b` is the lower
bound of element `b`. -/
def InElement (bnd : Nat → ℝ) (m a : Nat) (s : ℝ) : Prop :=
  a < m ∧ (a = 0 ∨ bnd a + eps ≤ s) ∧ (a + 1 = m ∨ s < bnd (a + 1) - eps)

/-- The location is, up to the tolerance, on the edge between elements `a` and `a + 1`. -/
def OnEdge (bnd : Nat → ℝ) (m a : Nat) (s : ℝ) : Prop :=
  a + 1 < m ∧ bnd (a + 1) - eps ≤ s ∧ s < bnd (a + 1) + eps

/-- The element bounds increase by at least twice the tolerance. -/
def Separated (bnd : Nat → ℝ) (m : Nat) : Prop := ∀ a < m, bnd a + 2 * eps ≤ bnd (a + 1)

/-- The polynomial has, at the `k` points from index `b` on, the values `y`. -/
def Through (p : ℝ[X]) (x y : Nat → ℝ) (b k : Nat) : Prop := ∀ i < k, p.eval (x (b + i)) = y (b + i)

/-- The output rows that are held at zero: with zero boundaries asked for, the first if it is at the bottom of the column
and the last if it is at the top. -/
def Zeroed (zeroBoundaries : Bool) (nOut : Nat) (out : Nat → ℝ) (l : Nat) : Prop :=
  zeroBoundaries = true ∧ ((l = 0 ∧ |out 0| < eps) ∨ (l = nOut - 1 ∧ |out (nOut - 1) - 1| < eps))

end Verif.Column
