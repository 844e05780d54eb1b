import Verif.Horiz.Vector
import Verif.Horiz.Rayleigh

/-!
# Viscosity after the sub-cycle

Models `HorizontalDynamicsFEM::StepAfterSubCycle` (src/atm/HorizontalDynamicsFEM.cpp:2637-2726) on one patch, with
`APPLY_RAYLEIGH_WITH_HYPERVIS` and `POSITIVE_DEFINITE_FILTER_TRACERS` defined (src/atm/Defines.h:74, 80).

Simplification: `ApplyDSS` is a parameter `dss` (direct stiffness summation is modelled in `Verif.Dss`).
-/

namespace Verif.Horiz

/-- What the step reads: the medium, the sponge, the areas for the filter and the settings of the dynamics. -/
structure Damping where
  M : Medium
  P : Sponge
  area : Nat → Nat → Nat → ℝ
  xz : Bool
  hasRayleigh : Bool
  order : Int
  nuScalar : ℝ
  nuDiv : ℝ
  nuVort : ℝ

/-- Replacement of one data instance. -/
def store (D : Nat → Data) (n : Nat) (u : Data) : Nat → Data := fun m => if m = n then u else D m

/-- The last lines, src/atm/HorizontalDynamicsFEM.cpp:2720-2725. -/
noncomputable def sponge (A : Damping) (dt : ℝ) (u : Data) : Data :=
  if A.hasRayleigh then applyRayleigh A.P dt u else u

/-- `StepAfterSubCycle` on the data instances `D`, src/atm/HorizontalDynamicsFEM.cpp:2637-2726; `none` is an exception. -/
noncomputable def stepAfterSubCycle (A : Damping) (dss : Data → Data) (dt : ℝ) (iInitial iUpdate iWorking : Nat)
    (D : Nat → Data) : Option (Nat → Data) :=
  open Classical in
  if iInitial = iWorking then none
  else if iUpdate = iWorking then none
  else
    -- CopyData
    let D := store D iUpdate (D iInitial)
    if A.nuScalar = 0 ∧ A.nuDiv = 0 ∧ A.nuVort = 0 then some (store D iUpdate (sponge A dt (D iUpdate)))
    else if A.order = 0 then some (store D iUpdate (sponge A dt (D iUpdate)))
    else if A.order = 2 then do
      let u ← applyScalar A.M (D iInitial) dt A.nuScalar false (-1) false (D iUpdate)
      let D := store D iUpdate u
      let D := store D iUpdate (applyVector A.M A.xz (D iInitial) (-dt) A.nuDiv A.nuVort false (D iUpdate))
      let D := store D iUpdate (filterTracers A.M.G.S A.area (D iUpdate))
      let D := store D iUpdate (dss (D iUpdate))
      some (store D iUpdate (sponge A dt (D iUpdate)))
    else if A.order = 4 then do
      -- ZeroData
      let D := store D iWorking (fun _ => 0)
      let w ← applyScalar A.M (D iInitial) 1 1 false (-1) false (D iWorking)
      let D := store D iWorking w
      let D := store D iWorking (applyVector A.M A.xz (D iInitial) 1 1 1 false (D iWorking))
      let D := store D iWorking (dss (D iWorking))
      let u ← applyScalar A.M (D iWorking) (-dt) A.nuScalar true (-1) false (D iUpdate)
      let D := store D iUpdate u
      let D := store D iUpdate (applyVector A.M A.xz (D iWorking) (-dt) A.nuDiv A.nuVort true (D iUpdate))
      let D := store D iUpdate (filterTracers A.M.G.S A.area (D iUpdate))
      let D := store D iUpdate (dss (D iUpdate))
      some (store D iUpdate (sponge A dt (D iUpdate)))
    else none

end Verif.Horiz
