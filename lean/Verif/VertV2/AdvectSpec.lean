/-
Vocabulary of C135: vertical advection in a column.
-/
import Verif.VertV2.Advect

namespace Verif.VertV2

open Finset Column

/-- Column `(i, j)` is in the interior. -/
def Patch.Inside (P : Patch) (i j : Nat) : Prop := P.aBegin ≤ i ∧ i < P.aEnd ∧ P.bBegin ≤ j ∧ j < P.bEnd

/-- The place of interface `l` of column `(i, j)` in an array of interfaces. -/
def Patch.place (P : Patch) (i j l : Nat) : Nat := (i * P.bTotal + j) * (P.levels + 1) + l

/-- The place that is read for interface `l` of column `(i, j)`. -/
def Patch.taken (P : Patch) (i j l : Nat) : Nat := (l * P.bTotal + i) * (P.levels + 1) + j

/-- The wind through interface `l`: nothing moves through the bottom; the vertical velocity stored is a length per time. -/
noncomputable def Patch.wind (P : Patch) (s : State) (i j l : Nat) : ℝ :=
  if l = 0 then 0
  else P.conXiEdge i j l 0 * applyRow P.interpNE (s.node 0 i j) l + P.conXiEdge i j l 1 * applyRow P.interpNE (s.node 1 i j) l +
    P.conXiEdge i j l 2 * (P.derivREdge i j l * s.edge 3 i j l)

/-- The mass that passes interface `l` per unit of time, with volume elements `area`. -/
noncomputable def Patch.passing (P : Patch) (s : State) (area : Nat → ℝ) (i j l : Nat) : ℝ :=
  area l * applyRow P.interpNE (s.node 4 i j) l * P.wind s i j l

/-- Vertical advection of horizontal velocity `c` on level `k`, with volume elements `area` of interfaces: the mass that passes an
interface changes the wind there by the difference across it, and the change is given to levels as interpolation takes it. -/
noncomputable def Patch.advection (P : Patch) (s : State) (area : Nat → ℝ) (c i j k : Nat) : ℝ :=
  -(∑ l ∈ range P.levels, (P.interpNE.row l).coeff k * (P.passing s area i j l * applyRow P.diffNE (s.node c i j) l)) /
    (s.node 4 i j k * P.areaNode i j k)

/-- The coefficients of interpolation to interfaces vanish outside of the stencil, and the stencil is within the levels. -/
def Patch.Stencils (P : Patch) : Prop := ∀ l < P.levels,
  (P.interpNE.row l).iend ≤ P.levels ∧
    ∀ k, k < (P.interpNE.row l).ibegin ∨ (P.interpNE.row l).iend ≤ k → (P.interpNE.row l).coeff k = 0

end Verif.VertV2
