/-
Specification vocabulary for the vertical coordinate.
-/
import Mathlib.Data.Real.Basic
import Mathlib.Algebra.BigOperators.Group.Finset.Basic

namespace Verif.Vert

/-- Points strictly inside (0, 1), increasing, with positive weights: the Gauss points of an element. -/
structure OpenRule (n : Nat) (g w : Nat → ℝ) : Prop where
  inside : ∀ k < n, 0 < g k ∧ g k < 1
  increasing : ∀ i j, i < j → j < n → g i < g j
  positive : ∀ k < n, 0 < w k

/-- `n + 1` points from 0 to 1, increasing, with positive weights, those of the ends equal: the Gauss-Lobatto points. -/
structure ClosedRule (n : Nat) (g w : Nat → ℝ) : Prop where
  first : g 0 = 0
  last : g n = 1
  increasing : ∀ i j, i < j → j ≤ n → g i < g j
  positive : ∀ k ≤ n, 0 < w k
  symmetric : w 0 = w n

/-- A stretching of [0, 1]: increasing and onto. -/
structure Stretching (F : ℝ → ℝ) : Prop where
  zero : F 0 = 0
  one : F 1 = 1
  increasing : ∀ x y, 0 ≤ x → x < y → y ≤ 1 → F x < F y

end Verif.Vert
