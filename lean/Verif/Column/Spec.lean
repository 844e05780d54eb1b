/-
Specification vocabulary for column operators.
-/
import Mathlib.Algebra.BigOperators.Group.Finset.Basic
import Verif.Column.Model

namespace Verif.Column

/-- What the operator should do to a column: the whole matrix times the column. -/
noncomputable def act (A : Op) (x : Nat → ℝ) (k : Nat) : ℝ := ∑ j ∈ Finset.range A.cols, (A.row k).coeff j * x j

/-- The stored range of every row is inside the matrix and holds every coefficient that is not zero. -/
def RangeOk (A : Op) : Prop := ∀ k < A.rows, (A.row k).iend ≤ A.cols ∧
  ∀ j < A.cols, (A.row k).coeff j ≠ 0 → (A.row k).ibegin ≤ j ∧ j < (A.row k).iend

end Verif.Column
