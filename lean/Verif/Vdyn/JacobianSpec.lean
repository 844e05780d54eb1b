/-
Vocabulary for the Jacobian: a matrix given by the statements that build it, times a vector; the change of the vertical wind and
of fluxes; what a band solver reads.
-/
import Verif.Vdyn.Spec
import Verif.Vdyn.Jacobian

namespace Verif.Vdyn

open Verif.Column Finset

/-- The matrix that the statements add up, times `y`: entry `i`. -/
def product (us : List Update) (y : Nat → ℝ) (i : Nat) : ℝ :=
  (us.map fun u => if u.row = i then u.value * y u.col else 0).sum

/-- The entry of the matrix that the statements add up. -/
def total (us : List Update) (i j : Nat) : ℝ := (us.map fun u => if u.row = i ∧ u.col = j then u.value else 0).sum

/-- What LAPACK's `DGBSV` takes for entry `(i, j)` of a matrix with `d` diagonals below and above from an array with
leading dimension `3 d + 1`: the documentation of `DGBSV` has it at row `2 d + i - j` of column `j`; outside the band it is 0. -/
def banded (d : Nat) (m : Int → ℝ) (i j : Nat) : ℝ :=
  if i ≤ j + d ∧ j ≤ i + d then m ((2 * d + i - j : Int) + (3 * d + 1) * j) else 0

/-- The change of the vertical wind through interface `k` for a change `y` of the unknowns. -/
def windChange (S : Setup) (G : Metric) (y : Nat → ℝ) (k : Nat) : ℝ :=
  if k = 0 ∨ S.levels ≤ k then 0 else G.conXiEdge k 2 * y (3 * k + 1)

/-- The sign of a number. -/
noncomputable def sgn (a : ℝ) : ℝ := open Classical in if 0 < a then 1 else if a < 0 then -1 else 0

/-- The wind over sloping interfaces times the shear: what a change of vertical velocity adds to the advection of vertical
velocity on interface `k`, and the Jacobian leaves out. -/
noncomputable def slope (S : Setup) (G : Metric) (D : Data) (k : Nat) : ℝ :=
  G.conAEdge k 2 * applyRow S.diffNE (D.node 0) k + G.conBEdge k 2 * applyRow S.diffNE (D.node 1) k

end Verif.Vdyn
