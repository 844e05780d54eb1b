import Verif.Acoustic.Model
import Verif.Steps.Schemes
import Mathlib.Analysis.SpecialFunctions.Pow.Real

/-!
# Viscosity, filter and friction of the two dynamics, and a whole step of ARS343b

Models what `StepAfterSubCycleCombine` of `HighSpeedDynamics` (src/atm/HighSpeedDynamics.cpp:2325-2383) and
`StepAfterSubCycle` of `SplitExplicitDynamics` (src/atm/SplitExplicitDynamics.cpp:3000-3090) do, and
`TimestepSchemeARS343b::Step` (src/atm/TimestepSchemeARS343b.cpp:172-239) with either kind of dynamics.

Simplifications as in `Verif.Acoustic.Model`.  The reference state is not used by the viscosity (`fRemoveRefState` is
`false` and `iComponent` is `-1` in every call).
-/

namespace Verif.Acoustic

open Verif.Horiz

/-- The settings: src/atm/HighSpeedDynamics.cpp:36-53, the reference length of the grid, the areas of the nodes that the
filter uses, and the friction: `GetRayleighStrength` on levels and on interfaces and the reference state.  `xz` is
`GetIsCartesianXZ`; `tracers` is their number. -/
structure Settings where
  order : Nat
  nuScalar : ℝ
  nuDiv : ℝ
  nuVort : ℝ
  refLength : ℝ
  area : Fld
  tracers : Nat
  friction : Bool
  xz : Bool
  strength : Fld
  strengthEdge : Fld
  reference : State

section

variable (G : Grid) (S : Settings)

/-- `dLocalNu`, src/atm/HighSpeedDynamics.cpp:1624-1631, 1986-1996; src/atm/SplitExplicitDynamics.cpp:2454-2461,
2765-2775. -/
noncomputable def localNu (scale : Bool) (nu : ℝ) (e : Nat) : ℝ :=
  if scale && decide (S.refLength ≠ 0) then nu * (G.deltaA e / S.refLength) ^ (3.2 : ℝ) else nu

/-- `m_dJGradientA`, src/atm/HighSpeedDynamics.cpp:1738-1771; src/atm/SplitExplicitDynamics.cpp:2567-2600. -/
noncomputable def jGradA (jac φ : Fld) : Fld := fun e i j k =>
  jac e i j k * (G.conA e i j 0 * derA G φ e i j k + G.conA e i j 1 * derB G φ e i j k)

/-- `m_dJGradientB`, the same lines. -/
noncomputable def jGradB (jac φ : Fld) : Fld := fun e i j k =>
  jac e i j k * (G.conB e i j 0 * derA G φ e i j k + G.conB e i j 1 * derB G φ e i j k)

/-- `dUpdateA`, src/atm/HighSpeedDynamics.cpp:1790-1804, 1832-1846; src/atm/SplitExplicitDynamics.cpp:2618-2632. -/
noncomputable def stiffA (φ : Fld) (e i j k : Nat) : ℝ :=
  loop G.order (fun s acc => acc + φ e s j k * G.B.stiff i s) 0 * (1 / G.deltaA e)

/-- `dUpdateB`, the same lines. -/
noncomputable def stiffB (φ : Fld) (e i j k : Nat) : ℝ :=
  loop G.order (fun s acc => acc + φ e i s k * G.B.stiff j s) 0 * (1 / G.deltaB e)

/-- What is subtracted from a scalar, src/atm/HighSpeedDynamics.cpp:1806-1809, 1848-1851;
src/atm/SplitExplicitDynamics.cpp:2634-2637. -/
noncomputable def smoothing (scale : Bool) (dt nu : ℝ) (jac φ : Fld) : Fld := fun e i j k =>
  dt * (1 / jac e i j k) * localNu G S scale nu e *
    (stiffA G (jGradA G jac φ) e i j k + stiffB G (jGradB G jac φ) e i j k)

/-- `ApplyScalarHyperdiffusion`: the scalars and the tracers; src/atm/HighSpeedDynamics.cpp:1527-1861, where
`fLaplacianOnly` means to assign and not to scale, and src/atm/SplitExplicitDynamics.cpp:2368-2646, which never assigns
and scales when `fScaleNuLocally`. -/
noncomputable def scalarDiffusion (assign scale : Bool) (dt nu : ℝ) (arg upd : State) : State :=
  let put (jac φ ψ : Fld) : Fld := fun e i j k =>
    if assign then -smoothing G S scale dt nu jac φ e i j k else ψ e i j k - smoothing G S scale dt nu jac φ e i j k
  { upd with
    p := put G.jac arg.p upd.p
    r := put G.jac arg.r upd.r
    w := put G.jacEdge arg.w upd.w
    t := fun n => if n < S.tracers then put G.jac (arg.t n) (upd.t n) else upd.t n }

/-- `m_dataDivergence`, src/atm/GridPatchCSGLL.cpp:1235-1247, 1280-1292, with the momenta and the density. -/
noncomputable def divergence (u v rho : Fld) : Fld := fun e i j k =>
  (derA G (fun e i j k => G.jac2d e i j * u e i j k / rho e i j k) e i j k +
    derB G (fun e i j k => G.jac2d e i j * v e i j k / rho e i j k) e i j k) * (1 / G.jac2d e i j)

/-- `m_dataVorticity`, src/atm/GridPatchCSGLL.cpp:1192-1204, 1226-1233, 1280-1294. -/
noncomputable def curl (u v rho : Fld) : Fld := fun e i j k =>
  (derA G (fun e i j k => 1 / rho e i j k * (G.covB e i j 0 * u e i j k + G.covB e i j 1 * v e i j k)) e i j k -
    derB G (fun e i j k => 1 / rho e i j k * (G.covA e i j 0 * u e i j k + G.covA e i j 1 * v e i j k)) e i j k) *
    (1 / G.jac2d e i j)

/-- `dUpdateCovUa`, src/atm/HighSpeedDynamics.cpp:2015-2050, 2088-2123; src/atm/SplitExplicitDynamics.cpp:2790-2830. -/
noncomputable def smoothA (u v rho : Fld) (nuDiv nuVort : Nat → ℝ) : Fld := fun e i j k =>
  nuDiv e * weakA G (divergence G u v rho) e i j k - nuVort e * G.jac2d e i j *
    (G.conB e i j 0 * weakA G (curl G u v rho) e i j k + G.conB e i j 1 * weakB G (curl G u v rho) e i j k)

/-- `dUpdateCovUb`, the same lines. -/
noncomputable def smoothB (u v rho : Fld) (nuDiv nuVort : Nat → ℝ) : Fld := fun e i j k =>
  nuDiv e * weakB G (divergence G u v rho) e i j k + nuVort e * G.jac2d e i j *
    (G.conA e i j 0 * weakA G (curl G u v rho) e i j k + G.conA e i j 1 * weakB G (curl G u v rho) e i j k)

/-- `ApplyVectorHyperdiffusion`: the momenta; src/atm/HighSpeedDynamics.cpp:1865-2168, where the density is that of the
argument if `fLaplacianOnly` and that of the update else, and src/atm/SplitExplicitDynamics.cpp:2650-2858, where it is
that of the initial instance. -/
noncomputable def vectorDiffusion (assign scale : Bool) (rho : Fld) (dt nuDiv nuVort : ℝ) (arg upd : State) : State :=
  let a := smoothA G arg.u arg.v rho (localNu G S scale nuDiv) (localNu G S scale nuVort)
  let b := smoothB G arg.u arg.v rho (localNu G S scale nuDiv) (localNu G S scale nuVort)
  let put (m : Nat → Nat → Nat → ℝ × ℝ) (ψ : Fld) : Fld := fun e i j k =>
    let x := (m e i j).1 * a e i j k + (m e i j).2 * b e i j k
    if assign then -dt * (x * rho e i j k) else ψ e i j k - dt * (x * rho e i j k)
  { upd with
    u := put (fun e i j => (G.conA e i j 0, G.conA e i j 1)) upd.u
    v := put (fun e i j => (G.conB e i j 0, G.conB e i j 1)) upd.v }

/-- `dTotalMass` and `dNonNegativeMass` of the filter, src/atm/HighSpeedDynamics.cpp:309-330;
src/atm/SplitExplicitDynamics.cpp:292-313. -/
noncomputable def elementMass (φ : Fld) (onlyPositive : Bool) (e k : Nat) : ℝ :=
  loop G.order (fun i acc => loop G.order (fun j acc =>
    if onlyPositive && decide (φ e i j k < 0) then acc else acc + φ e i j k * S.area e i j k) acc) 0

/-- `FilterNegativeTracers`, src/atm/HighSpeedDynamics.cpp:255-359; src/atm/SplitExplicitDynamics.cpp:254-343. -/
noncomputable def filterNegative (s : State) : State :=
  { s with t := fun n => if n < S.tracers then fun e i j k =>
      if 0 < s.t n e i j k
      then s.t n e i j k * (elementMass G S (s.t n) false e k / elementMass G S (s.t n) true e k) else 0
    else s.t n }

/-- `pGrid->ApplyDSS(…, DataType_Tracers)`. -/
noncomputable def dssTracers (s : State) : State := { s with t := fun n => mean G (s.t n) }

/-- The ten cycles of the friction on one value, src/atm/HighSpeedDynamics.cpp:2271-2289, 2301-2318;
src/atm/SplitExplicitDynamics.cpp:2947-2965, 2977-2993. -/
noncomputable def damped (nu dt ref x : ℝ) : ℝ :=
  if nu = 0 then x else
  loop 10 (fun _ x => 1 / (1 + 1 / 10 * dt * nu) * x + (1 - 1 / (1 + 1 / 10 * dt * nu)) * ref) x

/-- `ApplyRayleighFriction`, src/atm/HighSpeedDynamics.cpp:2172-2321; src/atm/SplitExplicitDynamics.cpp:2862-2996:
density is left alone, and the momentum in beta on a grid in the xz plane. -/
noncomputable def applyFriction (dt : ℝ) (s : State) : State :=
  { s with
    u := fun e i j k => damped (S.strength e i j k) dt (S.reference.u e i j k) (s.u e i j k)
    v := fun e i j k => if S.xz then s.v e i j k else
      damped (S.strength e i j k) dt (S.reference.v e i j k) (s.v e i j k)
    p := fun e i j k => damped (S.strength e i j k) dt (S.reference.p e i j k) (s.p e i j k)
    w := fun e i j k => damped (S.strengthEdge e i j k) dt (S.reference.w e i j k) (s.w e i j k) }

/-- The second half of both steps: filter, summation and friction, src/atm/HighSpeedDynamics.cpp:2365-2382;
src/atm/SplitExplicitDynamics.cpp:3071-3089. -/
noncomputable def finish (s : State) : State := dssTracers G (dss G (filterNegative G S s))

/-- The friction at the end, src/atm/HighSpeedDynamics.cpp:2377-2382; src/atm/SplitExplicitDynamics.cpp:3083-3088. -/
noncomputable def rub (dt : ℝ) (s : State) : State := if S.friction then applyFriction S dt s else s

/-- `StepAfterSubCycleCombine`, src/atm/HighSpeedDynamics.cpp:2325-2383. -/
noncomputable def afterCombine (iU iW : Nat) (dt : ℝ) (st : Store) : Option Store :=
  if iU = iW then none
  else if S.nuScalar = 0 ∧ S.nuDiv = 0 ∧ S.nuVort = 0 then some (putSlot st iU (rub S dt (st iU)))
  else if S.order = 4 then
    let work := scalarDiffusion G S true false 1 1 (st iU) (st iW)
    let work := vectorDiffusion G S true false (st iU).r 1 1 1 (st iU) work
    let work := dssTracers G (dss G work)
    let upd := scalarDiffusion G S false true (-dt) S.nuScalar work (st iU)
    let upd := vectorDiffusion G S false true upd.r (-dt) S.nuDiv S.nuVort work upd
    some (putSlot (putSlot st iW work) iU (rub S dt (finish G S upd)))
  else none

/-- `StepAfterSubCycle`, src/atm/SplitExplicitDynamics.cpp:3000-3090.  In all calls `iI` and `iU` differ, so that the
argument of the viscosity is not changed while it is read. -/
noncomputable def stepAfter (iI iU iW : Nat) (dt : ℝ) (st : Store) : Option Store :=
  if iI = iW ∨ iU = iW then none
  else if S.nuScalar = 0 ∧ S.nuDiv = 0 ∧ S.nuVort = 0 then some (putSlot st iU (rub S dt (st iI)))
  else if S.order = 0 then some (putSlot st iU (rub S dt (st iI)))
  else if S.order = 2 then
    let upd := scalarDiffusion G S false false dt S.nuScalar (st iI) (st iI)
    let upd := vectorDiffusion G S false false (st iI).r (-dt) S.nuDiv S.nuVort (st iI) upd
    some (putSlot st iU (rub S dt (finish G S upd)))
  else if S.order = 4 then
    let work := { zero (st iW) with t := fun _ _ _ _ _ => 0 }
    let work := scalarDiffusion G S false false 1 1 (st iI) work
    let work := vectorDiffusion G S false false (st iI).r 1 1 1 (st iI) work
    let work := dssTracers G (dss G work)
    let upd := scalarDiffusion G S false true (-dt) S.nuScalar work (st iI)
    let upd := vectorDiffusion G S false true (st iI).r (-dt) S.nuDiv S.nuVort work upd
    some (putSlot (putSlot st iW work) iU (rub S dt (finish G S upd)))
  else none

/-- `PostProcessSubstage`, src/atm/GridGLL.cpp:571-583. -/
noncomputable def post (f : Steps.Fld) (s : State) : State :=
  match f with
  | .state => dss G s
  | .tracers => dssTracers G s

/-- A call of a time scheme with `HighSpeedDynamics`: `StepExplicit` and `StepImplicit` throw
(src/atm/HighSpeedDynamics.h:106-138), `StepAfterSubCycle` is that of the base class, which does nothing
(src/atm/HorizontalDynamics.h:149-156).  The calls that involve other parts of the model are given by `others`. -/
noncomputable def callHighSpeed (solver : Solver) (others : Steps.Cmd ℝ → Store → Option Store) :
    Steps.Cmd ℝ → Store → Option Store
  | .expCombine inst coeff a u dt, st => explicitCombine G coeff inst a u dt st
  | .impCombine inst coeff a u dt, st => implicitCombine G solver coeff inst a u dt st
  | .post u f, st => some (putSlot st u (post G f (st u)))
  | .afterCombine u w dt, st => afterCombine G S u w dt st
  | .hExp _ _ _, _ => none
  | .hImp _ _ _, _ => none
  | .after _ _ _ _, st => some st
  | c, st => others c st

/-- A call of a time scheme with a horizontal dynamics other than `HighSpeedDynamics`: `StepExplicitCombine`,
`StepImplicitCombine` and `StepAfterSubCycleCombine` are those of the base class, which do nothing
(src/atm/HorizontalDynamics.h:91-99, 115-123, 161-167). -/
noncomputable def callOther (others : Steps.Cmd ℝ → Store → Option Store) : Steps.Cmd ℝ → Store → Option Store
  | .expCombine _ _ _ _ _, st => some st
  | .impCombine _ _ _ _ _, st => some st
  | .post u f, st => some (putSlot st u (post G f (st u)))
  | .afterCombine _ _ _, st => some st
  | c, st => others c st

end

/-- The calls of a step one after the other. -/
def runCalls (call : Steps.Cmd ℝ → Store → Option Store) : List (Steps.Cmd ℝ) → Store → Option Store
  | [], st => some st
  | c :: cs, st => (call c st).bind (runCalls call cs)

end Verif.Acoustic
