import Verif.Horiz.SubCycle
import Verif.Nonhydro.Model

/-!
# The explicit horizontal step

Models `HorizontalDynamicsFEM::StepExplicit` (src/atm/HorizontalDynamicsFEM.cpp:1787-1863) on one patch, with
`DISABLE_UNIFORM_DIFFUSION_CHECKS` not defined and `POSITIVE_DEFINITE_FILTER_TRACERS` defined (src/atm/Defines.h:80).

Simplifications: those of `Verif.Nonhydro.Model`, `Verif.Horiz.Diffusion` and `Verif.Horiz.Vector`.  The reference state
of the grid, data instance `DATA_INDEX_REFERENCE`, is kept apart from the numbered instances.
-/

namespace Verif.Nonhydro

open Verif.Horiz

/-- `EquationSet::Type`, src/atm/EquationSet.h; `other` is any other value. -/
inductive Equations where
  | primitive
  | shallow
  | other
deriving DecidableEq

/-- What the step reads beside the arguments: geometry and settings (`A`; `A.uniform` is `HasUniformDiffusion` and `A.nu`
is `GetScalarUniformDiffusionCoeff`), equation set, `GetVectorUniformDiffusionCoeff`, `GetJacobianREdge`,
`GetElementAreaNode`, the reference state and the reference length. -/
structure Dynamics where
  A : Air
  eqn : Equations
  nuVector : ℝ
  jacEdge : Nat → Nat → Nat → ℝ
  area : Nat → Nat → Nat → ℝ
  ref : Data
  refLength : ℝ

/-- The diffusion as the step calls it: components below five are on levels and components from five on are on
interfaces, where `edge` numbers them. -/
def Dynamics.medium (E : Dynamics) : Medium where
  G := E.A.G
  B := E.A.B
  components := 10
  located := fun c => if c < 5 then .node else .redge
  jacNode := E.A.jac
  jacREdge := E.jacEdge
  ref := E.ref
  refLength := E.refLength

/-- The number of component `c` in the array it lives in, `GetVarLocation(c)`,
src/atm/HorizontalDynamicsFEM.cpp:2016-2033. -/
def Dynamics.home (E : Dynamics) (c : Nat) : Int :=
  if (c = 3 ∧ E.A.wOnEdge = true) ∨ (c = 2 ∧ E.A.pOnEdge = true) then 5 + c else c

/-- What a call does. -/
inductive Outcome where
  | done (D : Nat → Data)
  | exception
  | undefined

/-- The uniform diffusion, src/atm/HorizontalDynamicsFEM.cpp:1815-1857; `none` is an exception. -/
noncomputable def uniformDiffusion (E : Dynamics) (init : Data) (dt : ℝ) (u : Data) : Option Data :=
  if E.A.uniform then
    let u := applyVector E.medium E.A.xz init dt (-E.nuVector) (-E.nuVector) false u
    let u := applyVector E.medium E.A.xz E.ref dt E.nuVector E.nuVector false u
    if E.eqn = .primitive then do
      let u ← applyScalar E.medium init dt E.A.nu false (E.home 2) true u
      applyScalar E.medium init dt E.nuVector false (E.home 3) true u
    else some u
  else some u

/-- Diffusion and filter, src/atm/HorizontalDynamicsFEM.cpp:1815-1862. -/
noncomputable def finish (E : Dynamics) (iInitial iUpdate : Nat) (dt : ℝ) (D : Nat → Data) : Outcome :=
  match uniformDiffusion E (D iInitial) dt (D iUpdate) with
  | none => .exception
  | some u => .done (store D iUpdate (filterTracers E.A.G.S E.area u))

/-- `StepExplicit` on the data instances `D`, src/atm/HorizontalDynamicsFEM.cpp:1787-1863. -/
noncomputable def stepExplicit (E : Dynamics) (iInitial iUpdate : Nat) (dt : ℝ) (D : Nat → Data) : Outcome :=
  if iInitial = iUpdate then .exception
  else match E.eqn with
    | .primitive => match stepNonhydro E.A (D iInitial) dt (D iUpdate) with
      | none => .undefined
      | some (i, u) => finish E iInitial iUpdate dt (store (store D iInitial i) iUpdate u)
    | .shallow => finish E iInitial iUpdate dt
        (store D iUpdate (stepShallowWater E.A.G E.A.B (D iInitial) dt (D iUpdate)))
    | .other => .exception

end Verif.Nonhydro
