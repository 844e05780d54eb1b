/-
Model of the equations of one column in the vertical dynamics of method `v2` (src/atm/VerticalDynamicsFEMV2.cpp): `BuildF`,
`Evaluate`, `BuildJacobianF`, `BuildJacobianF_LOR_RhoTheta_Pi`.

Simplifications: those of `Vdyn/Model.lean` and `Vdyn/Jacobian.lean`, whose types are used.  `SetupReferenceColumn`
(VerticalDynamicsFEMV2.cpp:1774-1968), what `PrepareColumn` does before the vertical wind (1970-2126) and uniform diffusion
(2219-2270, 2733-2776) are word for word those of VerticalDynamicsFEM.cpp and are the definitions there: `setupColumn`, `nodeState`,
`edgeState`, `exnerNode`, `diffPNode`, `diffPEdge`, `diffusion`.  The configuration is the one compiled: as there, but no upwinding (the
macros `UPWIND_…` are commented out, VerticalDynamicsFEMV2.cpp:37-40).
-/
import Verif.Vdyn.Jacobian

namespace Verif.ColumnV2

open Verif.Column Verif.Vdyn

variable (S : Setup) (G : Metric) (M : Memory) (x : Nat → ℝ)

/-- `m_dXiDotNode`, VerticalDynamicsFEMV2.cpp:2185-2194. -/
noncomputable def xiDotNode (k : Nat) : ℝ :=
  G.conXi k 0 * nodeState S M x 0 k + G.conXi k 1 * nodeState S M x 1 k + G.conXi k 2 * (nodeState S M x 3 k * G.derivR k)

/-- `m_dXiDotREdge`, VerticalDynamicsFEMV2.cpp:2196-2209. -/
noncomputable def xiDotEdge (k : Nat) : ℝ :=
  if 1 ≤ k ∧ k < S.levels then
    G.conXiEdge k 0 * edgeState S M x 0 k + G.conXiEdge k 1 * edgeState S M x 1 k +
      G.conXiEdge k 2 * (edgeState S M x 3 k * G.derivREdge k)
  else 0

/-- The derivative of the flux of variable `c` on levels, VerticalDynamicsFEMV2.cpp:2355-2381 and 2438-2463. -/
noncomputable def diffFlux (c : Nat) : Nat → ℝ :=
  if fluxOnLevels S then
    applyRow (if S.wOnEdge then S.diffNNZero else S.diffNN) fun k => G.jac k * nodeState S M x c k * xiDotNode S G M x k
  else applyRow S.diffEN fun k =>
    if 1 ≤ k ∧ k < S.levels then G.jacEdge k * edgeState S M x c k * xiDotEdge S G M x k else 0

/-- `m_dKineticEnergyNode`, VerticalDynamicsFEMV2.cpp:2572-2596. -/
noncomputable def kineticNode (k : Nat) : ℝ :=
  let u := nodeState S M x 0 k
  let v := nodeState S M x 1 k
  let w := nodeState S M x 3 k * G.derivR k
  0.5 * (contra (G.conA k) u v w * u + contra (G.conB k) u v w * v + contra (G.conXi k) u v w * w)

/-- The residual of vertical velocity on level `k` before diffusion, VerticalDynamicsFEMV2.cpp:2611-2669. -/
noncomputable def forceNode (k : Nat) : ℝ :=
  let u := nodeState S M x 0 k
  let v := nodeState S M x 1 k
  let w := nodeState S M x 3 k * G.derivR k
  if 1 ≤ k ∧ k < S.levels - 1 then
    diffPNode S M x k * nodeState S M x 2 k / nodeState S M x 4 k / G.derivR k + S.phys.g +
      (applyRow S.diffNN (kineticNode S G M x) k +
        (-contra (G.conA k) u v w * M.diffUa k - contra (G.conB k) u v w * M.diffUb k)) / G.derivR k
  else 0

/-- The residual of vertical velocity on interface `k` before diffusion, VerticalDynamicsFEMV2.cpp:2671-2730. -/
noncomputable def forceEdge (k : Nat) : ℝ :=
  let u := edgeState S M x 0 k
  let v := edgeState S M x 1 k
  let w := edgeState S M x 3 k * G.derivREdge k
  if 1 ≤ k ∧ k < S.levels then
    diffPEdge S M x k * edgeState S M x 2 k / edgeState S M x 4 k / G.derivREdge k + S.phys.g +
      (applyRow S.diffNE (kineticNode S G M x) k +
        (-contra (G.conAEdge k) u v w * M.diffUa k - contra (G.conBEdge k) u v w * M.diffUb k)) / G.derivREdge k
  else 0

/-- `BuildF` before the time derivative, VerticalDynamicsFEMV2.cpp:2320-2906, entry of variable `c` (2 density times potential
temperature, 3 vertical velocity, 4 density) at level or interface `k`: entries that no loop writes are zero. -/
noncomputable def tendency (c k : Nat) : ℝ :=
  if c = 3 then
    (if k = 0 ∨ k = (if S.wOnEdge then S.levels else S.levels - 1) then 0
    else if S.wOnEdge then forceEdge S G M x k - diffusion S M x 3 k
    else if k < S.levels then forceNode S G M x k - diffusion S M x 3 k
    else 0)
  else if k < S.levels then
    diffFlux S G M x c k * (1 / G.jac k) - diffusion S M x c k
  else if onEdge S c then 0 - diffusion S M x c k
  else 0

/-- `BuildF` after `PrepareColumn`, that is `Evaluate`, VerticalDynamicsFEMV2.cpp:3975-3984, with the time derivative of 2923-2927:
entry `i` of the column. -/
noncomputable def residual (i : Nat) : ℝ :=
  tendency S G M x (i % 3 + 2) (i / 3) + (x i - M.state i) * (1 / S.dt)

/-! ### The Jacobian -/

/-- Fluxes of density and of density times potential temperature on level `k`, VerticalDynamicsFEMV2.cpp:3231-3270. -/
noncomputable def fluxUpdates (k : Nat) : List Update :=
  (stencil S.diffEN k).flatMap fun m =>
    (if m ≠ 0 ∧ m ≠ S.levels then
      let c := (S.diffEN.row k).coeff m * G.jacEdge m * (1 / G.jac k) * G.conXiEdge m 2 * G.derivREdge m
      [upd 1 m 0 k (c * edgeState S M x 2 m), upd 1 m 2 k (c * edgeState S M x 4 m)]
    else []) ++
    (stencil S.interpNE m).flatMap fun n =>
      let c := (S.diffEN.row k).coeff m * G.jacEdge m * (1 / G.jac k) * (S.interpNE.row m).coeff n * xiDotEdge S G M x m
      [upd 2 n 2 k c, upd 0 n 0 k c]

/-- Pressure gradient on interface `k`, VerticalDynamicsFEMV2.cpp:3272-3312. -/
noncomputable def pressureUpdates (k : Nat) : List Update :=
  let a := edgeState S M x 2 k * S.phys.r / (G.derivR k * edgeState S M x 4 k * (S.phys.cp - S.phys.r))
  let b := 1 / G.derivREdge k / (edgeState S M x 4 k * edgeState S M x 4 k) * diffPEdge S M x k
  ((stencil S.diffNE k).map fun m =>
    upd 0 m 1 k (a * (S.diffNE.row k).coeff m * exnerNode S M x m / nodeState S M x 2 m)) ++
  (stencil S.interpNE k).flatMap fun n =>
    let c := b * (S.interpNE.row k).coeff n
    [upd 0 n 1 k (c * edgeState S M x 4 k), upd 2 n 1 k (-c * edgeState S M x 2 k)]

/-- Kinetic energy on interface `k`, VerticalDynamicsFEMV2.cpp:3316-3332. -/
noncomputable def clarkUpdates (k : Nat) : List Update :=
  (stencil S.diffNE k).flatMap fun l =>
    (stencil S.interpEN l).map fun m =>
      upd 1 m 1 k ((S.interpEN.row l).coeff m * (S.diffNE.row k).coeff l / G.derivREdge k * G.derivR l * xiDotNode S G M x l)

/-- The identity, VerticalDynamicsFEMV2.cpp:3338-3343. -/
noncomputable def timeUpdates : List Update :=
  (List.range (S.levels + 1)).flatMap fun k => [upd 0 k 0 k (1 / S.dt), upd 1 k 1 k (1 / S.dt), upd 2 k 2 k (1 / S.dt)]

/-- `BuildJacobianF_LOR_RhoTheta_Pi`, VerticalDynamicsFEMV2.cpp:3135-3356, for vertical velocity on interfaces;
`BuildJacobianF_Diffusion` (2932-3131) adds nothing without upwinding. -/
noncomputable def jacobianUpdates : List Update :=
  (List.range S.levels).flatMap (fluxUpdates S G M x) ++
  (List.range' 1 (S.levels - 1)).flatMap (pressureUpdates S G M x) ++
  (List.range' 1 (S.levels - 1)).flatMap (clarkUpdates S G M x) ++ timeUpdates S

end Verif.ColumnV2
