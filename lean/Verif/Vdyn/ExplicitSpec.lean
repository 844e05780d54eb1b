/-
Vocabulary for the explicit step of a column: the vertical force, and the wind that is known on interfaces.
-/
import Verif.Vdyn.TracerSpec
import Verif.Vdyn.PatchSpec
import Verif.Vdyn.Explicit

namespace Verif.Vdyn

open Verif.Column

/-- The column of the data. -/
def Data.column (D : Data) : Column := ⟨D.node 0, D.node 1, D.node 2, D.edge 3, D.node 4⟩

/-- What slows vertical velocity down on interface `k`: pressure gradient, gravity, gradient of kinetic energy less shear, diffusion and
upwinding. -/
noncomputable def verticalForce (S : Setup) (G : Metric) (D : Data) (k : Nat) : ℝ :=
  theta S D.column k * applyRow S.diffNE (exner S D.column) k + S.phys.g * G.derivREdge k +
    applyRow S.diffNE (kinetic S G D.column) k - shear S G D.column k -
    diffuse S S.diffDiffEE S.nuVector (D.edge 3) (D.refEdge 3) k - upwindW S G D.column k

/-- The wind through interface `k` of velocities known on interfaces; nothing moves through the bottom and the top. -/
noncomputable def edgeWind (S : Setup) (G : Metric) (D : Data) (k : Nat) : ℝ :=
  if k = 0 ∨ S.levels ≤ k then 0
  else G.conXiEdge k 0 * D.edge 0 k + G.conXiEdge k 1 * D.edge 1 k + G.conXiEdge k 2 * D.edge 3 k

end Verif.Vdyn
