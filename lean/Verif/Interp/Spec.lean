/-
Specification vocabulary for interpolation: applying a list of coefficients to the samples of a function at the nodes.
-/
import Mathlib.Data.Real.Basic

namespace Verif.Interp

/-- The sum of the coefficients times the samples `y 0, y 1, …`. -/
def apply (coeffs : List ℝ) (y : Nat → ℝ) : ℝ := (coeffs.zipIdx.map fun ci => ci.1 * y ci.2).sum

/-- The first `n` nodes are different. -/
def DistinctNodes (n : Nat) (x : Nat → ℝ) : Prop := ∀ i j, i < n → j < n → i ≠ j → x i ≠ x j

/-- The first `n` nodes are at least the matching tolerance, `1e-14`, apart. -/
def ApartNodes (n : Nat) (x : Nat → ℝ) : Prop := ∀ i j, i < n → j < n → i ≠ j → 1 / 10 ^ 14 ≤ |x i - x j|

end Verif.Interp
