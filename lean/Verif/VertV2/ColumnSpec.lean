/-
Vocabulary for the equations of a column in which vertical velocity is in length per time.
-/
import Verif.Vdyn.Spec

namespace Verif.ColumnV2

open Verif.Column Verif.Vdyn

/-- The metric for vertical velocity in length per time: the covariant component of vertical velocity is vertical velocity times the
derivative of height along the vertical coordinate, so that factor is put to its coefficient. -/
def physical (G : Metric) : Metric :=
  { G with
    conA := fun k c => if c = 2 then G.conA k 2 * G.derivR k else G.conA k c
    conB := fun k c => if c = 2 then G.conB k 2 * G.derivR k else G.conB k c
    conXi := fun k c => if c = 2 then G.conXi k 2 * G.derivR k else G.conXi k c
    conAEdge := fun k c => if c = 2 then G.conAEdge k 2 * G.derivREdge k else G.conAEdge k c
    conBEdge := fun k c => if c = 2 then G.conBEdge k 2 * G.derivREdge k else G.conBEdge k c
    conXiEdge := fun k c => if c = 2 then G.conXiEdge k 2 * G.derivREdge k else G.conXiEdge k c }

/-- Half the sum of contravariant times covariant velocity on level `k`. -/
noncomputable def kinetic (S : Setup) (G : Metric) (C : Vdyn.Column) (k : Nat) : ℝ :=
  let w := applyRow S.interpEN C.w k * G.derivR k
  ((G.conA k 0 * C.u k + G.conA k 1 * C.v k + G.conA k 2 * w) * C.u k +
    (G.conB k 0 * C.u k + G.conB k 1 * C.v k + G.conB k 2 * w) * C.v k +
    (G.conXi k 0 * C.u k + G.conXi k 1 * C.v k + G.conXi k 2 * w) * w) / 2

/-- The unknowns, with vertical velocity times `z`. -/
def stretch (z : ℝ) (x : Nat → ℝ) (i : Nat) : ℝ := if i % 3 = 1 then z * x i else x i

/-- The data, with vertical velocity on interfaces times `z`, the reference too. -/
def stretchData (z : ℝ) (D : Data) : Data :=
  { D with
    edge := fun c k => if c = 3 then z * D.edge 3 k else D.edge c k
    refEdge := fun c k => if c = 3 then z * D.refEdge 3 k else D.refEdge c k }

/-- What a change `y` of density times potential temperature does to the pressure gradient force on interface `k` through the Exner
pressure, before it is divided by the derivative of height. -/
noncomputable def pressureChange (S : Setup) (D : Data) (x y : Nat → ℝ) (k : Nat) : ℝ :=
  theta S (asColumn D x) k * (S.phys.r / (S.phys.cp - S.phys.r)) *
    applyRow S.diffNE (fun m => exner S (asColumn D x) m / x (3 * m) * y (3 * m)) k

end Verif.ColumnV2
