import Verif.Deep.Spec

/-!
# What it means that an atmosphere is at rest

Components 0 and 1 are the horizontal velocities, 2 is density times potential temperature, 3 is vertical velocity and 4 is
density.
-/

namespace Verif.Deep

open Verif.Column (applyRow)

variable (A : Atmos)

/-- At every node of every patch nothing moves, density times potential temperature on level `k` is `P k`, and density is
`R k`. -/
def Atmos.Still (P R : Nat → ℝ) (v : A.W.Field) : Prop :=
  ∀ i iA iB, Horiz.Interior (A.W.tile i).M.G.S iA iB →
    (∀ k, k < A.W.levels → v i 0 iA iB k = 0 ∧ v i 1 iA iB k = 0 ∧ v i 2 iA iB k = P k ∧ v i 4 iA iB k = R k) ∧
    ∀ k, k ≤ A.W.levels → v i 3 iA iB k = 0

/-- The surfaces of the vertical coordinate are level: height does not vary along alpha and beta. -/
def Atmos.LevelGround : Prop :=
  ∀ i iA iB k m, Horiz.Interior (A.W.tile i).M.G.S iA iB → k < A.W.levels → m < 2 → (A.air i).A.derivR iA iB k m = 0

/-- Hydrostatic balance in every column: on every interface inside it, potential temperature times the vertical derivative of
Exner pressure, both by the operators of the column, is minus gravity times the vertical derivative of height. -/
def Atmos.Hydrostatic (P R : Nat → ℝ) : Prop :=
  ∀ i iA iB, Horiz.Interior (A.W.tile i).M.G.S iA iB → ∀ k, 0 < k → k < A.W.levels →
    applyRow A.column.interpNE P k / applyRow A.column.interpNE R k *
      applyRow A.column.diffNE (fun j => A.column.phys.cp * Real.exp (A.column.phys.r /
        (A.column.phys.cp - A.column.phys.r) * Real.log (A.column.phys.r / A.column.phys.p0 * P j))) k =
      -(A.column.phys.g * ((A.fixed i).metric (iA, iB)).derivREdge k)

end Verif.Deep
