/-
Vocabulary of C143: vertical advection of horizontal velocity in a column of method v2.
-/
import Verif.VertV2.TermsSpec

namespace Verif.ColumnV2

open Verif.Column Verif.Vdyn Finset

/-- Vertical advection of horizontal velocity `c` on level `k`, with `edgeArea` of interfaces and `area` of levels: the mass that passes an
interface changes the velocity there by the difference across it, and the change is given to levels as interpolation takes it. -/
noncomputable def advection (S : Setup) (G : Metric) (edgeArea area : Nat → ℝ) (D : Data) (c k : Nat) : ℝ :=
  -(∑ l ∈ range S.levels, (S.interpNE.row l).coeff k *
    (edgeArea l * applyRow S.interpNE (D.node 4) l * windOld S G D l * applyRow S.diffNE (D.node c) l)) / (D.node 4 k * area k)

/-- The place `[levels - 1][iA][iB]` is behind the end of the array. -/
def Behind (A : Schur.Site) (S : Setup) : Prop :=
  A.a * A.b * (S.levels + 1) ≤ ((S.levels - 1) * A.b + A.iA) * (S.levels + 1) + A.iB

end Verif.ColumnV2
