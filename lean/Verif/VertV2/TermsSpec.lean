/-
Vocabulary of C140 and C141: the vertical force per unit of mass in a column of method v2.
-/
import Verif.VertV2.TracerSpec
import Verif.Vdyn.PatchSpec

namespace Verif.ColumnV2

open Verif.Column Verif.Vdyn

/-- The column of the data. -/
def columnOf (D : Data) : Vdyn.Column := ⟨D.node 0, D.node 1, D.node 2, D.edge 3, D.node 4⟩

/-- What slows vertical velocity, in length per time, down on interface `k`: per unit of height the pressure gradient and the gradient of
kinetic energy less shear, then gravity and diffusion. -/
noncomputable def force (S : Setup) (G : Metric) (D : Data) (k : Nat) : ℝ :=
  (theta S (columnOf D) k * applyRow S.diffNE (exner S (columnOf D)) k + applyRow S.diffNE (kinetic S G (columnOf D)) k -
    shear S (physical G) (columnOf D) k) / G.derivREdge k + S.phys.g -
    diffuse S S.diffDiffEE S.nuVector (D.edge 3) (D.refEdge 3) k

end Verif.ColumnV2
