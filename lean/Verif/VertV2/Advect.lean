/-
Model of the vertical advection of horizontal velocity by the second version of the vertical dynamics
(src/atm/VerticalDynamicsFEMV2.cpp, `StepExplicit`), which `--vmethod v2` selects (src/atm/TempestInitialize.h:377-386).

Simplifications: `double` is the real numbers, where division by zero gives zero.  The volume elements of interfaces are a flat
memory of the size of src/atm/GridPatch.cpp:199-202, in which an access outside is `ub`; the other arrays are functions of their
indices.  Vertical velocity is on interfaces, as the implicit step of this version requires; `m_fFullyExplicit` is off.  Upwinding and
hyperviscosity are off (the macros of lines 33-41 are commented out), and so is `EXPLICIT_VERTICAL_VELOCITY_ADVECTION`.  Initial data
and data to update are different arrays, as in all time steppers.
-/
import Verif.Column.Penalty
import Mathlib.Algebra.BigOperators.Group.Finset.Basic

namespace Verif.VertV2

open Verif.Column

/-- What the step reads beside the state: `m_box`, `GetRElements`, `GetElementAreaREdge`, `GetElementAreaNode`,
`GetContraMetricXiREdge`, third component of `GetDerivRREdge`, column operators, `HasUniformDiffusion` with coefficient and height of
the top, reference state. -/
structure Patch where
  aTotal : Nat
  bTotal : Nat
  aBegin : Nat
  aEnd : Nat
  bBegin : Nat
  bEnd : Nat
  levels : Nat
  areaEdge : Nat → ℝ
  areaNode : Nat → Nat → Nat → ℝ
  conXiEdge : Nat → Nat → Nat → Nat → ℝ
  derivREdge : Nat → Nat → Nat → ℝ
  interpNE : Op
  diffNE : Op
  diffDiffNN : Op
  uniform : Bool
  nu : ℝ
  ztop : ℝ
  refNode : Nat → Nat → Nat → Nat → ℝ

/-- `GetDataState` on levels and on interfaces: component, column, level. -/
structure State where
  node : Nat → Nat → Nat → Nat → ℝ
  edge : Nat → Nat → Nat → Nat → ℝ

/-- How a step ends. -/
inductive Res where
  | ub
  | ok (s : State)

variable (P : Patch) (s : State)

/-- `m_dXiDotREdge`, src/atm/VerticalDynamicsFEMV2.cpp:851-866, from velocities on interfaces of `SetupReferenceColumn`
(1806-1822) and of lines 761-781. -/
noncomputable def xiDot (i j k : Nat) : ℝ :=
  if k = 0 ∨ k = P.levels then 0
  else P.conXiEdge i j k 0 * applyRow P.interpNE (s.node 0 i j) k + P.conXiEdge i j k 1 * applyRow P.interpNE (s.node 1 i j) k +
    P.conXiEdge i j k 2 * (s.edge 3 i j k * P.derivREdge i j k)

/-- The address of `dElementAreaREdge[l][i][j]`. -/
def areaAddress (l i j : Nat) : Nat := l * P.bTotal * (P.levels + 1) + i * (P.levels + 1) + j

/-- `dDeltaU` (`c = 0`) and `dDeltaV` (`c = 1`), src/atm/VerticalDynamicsFEMV2.cpp:886-914, with density on interfaces from lines
783-790. -/
noncomputable def delta (c i j k : Nat) : ℝ :=
  (List.range P.levels).foldl (fun d l =>
    d - applyRow P.interpNE (s.node 4 i j) l * P.areaEdge (areaAddress P l i j) * xiDot P s i j l * (P.interpNE.row l).coeff k *
      applyRow P.diffNE (s.node c i j) l) 0 / (s.node 4 i j k * P.areaNode i j k)

/-- Uniform diffusion of horizontal velocity, src/atm/VerticalDynamicsFEMV2.cpp:1173-1217, per unit of time. -/
noncomputable def smooth (c i j k : Nat) : ℝ :=
  if P.uniform then
    P.nu / (P.ztop * P.ztop) * (applyRow P.diffDiffNN (s.node c i j) k - applyRow P.diffDiffNN (P.refNode c i j) k)
  else 0

/-- One column of `StepExplicit`, src/atm/VerticalDynamicsFEMV2.cpp:753-1269. -/
noncomputable def column (dt : ℝ) (i j : Nat) (t : State) : Res :=
  if (List.range P.levels).all fun l => decide (areaAddress P l i j < P.aTotal * P.bTotal * (P.levels + 1)) then
    .ok { t with node := fun c a b k =>
      if (c = 0 ∨ c = 1) ∧ a = i ∧ b = j ∧ k < P.levels then t.node c a b k + dt * delta P s c i j k + dt * smooth P s c i j k
      else t.node c a b k }
  else .ub

/-- The columns of the interior, src/atm/VerticalDynamicsFEMV2.cpp:750-751. -/
def interior : List (Nat × Nat) :=
  (List.range' P.aBegin (P.aEnd - P.aBegin)).flatMap fun i => (List.range' P.bBegin (P.bEnd - P.bBegin)).map fun j => (i, j)

/-- A loop over columns. -/
noncomputable def sweep (dt : ℝ) : List (Nat × Nat) → State → Res
  | [], t => .ok t
  | x :: l, t =>
    match column P s dt x.1 x.2 t with
    | .ub => .ub
    | .ok t => sweep dt l t

/-- `StepExplicit` of one patch, src/atm/VerticalDynamicsFEMV2.cpp:631-1274. -/
noncomputable def stepExplicit (dt : ℝ) (t : State) : Res := sweep P s dt (interior P) t

end Verif.VertV2
