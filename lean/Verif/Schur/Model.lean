/-
Model of the vertical dynamics that solves for a column by a Schur complement (src/atm/VerticalDynamicsSchur.{h,cpp}, chosen
by `--vmethod schur`): `PrepareColumn`, `BuildF`, `BuildJacobianF`, and the part of `StepImplicit` that is about one column.

Simplifications: `double` is the real numbers.  The configuration is the one compiled: `USE_DIRECTSOLVE`,
`USE_JACOBIAN_DIAGONAL`, `FORMULATION_RHOTHETA_PI` (Defines.h:27-41), `EXPLICIT_VERTICAL_VELOCITY_ADVECTION`, upwinding of every
variable, no hyperviscosity (VerticalDynamicsSchur.cpp:33-50), an order of hyperviscosity of at most 2 (166-169), vertical
velocity on interfaces (on levels `BuildJacobianF_Diffusion` throws, 3227-3229).  Comments apart, the text of
`SetupReferenceColumn` (1969-2161) and of what `PrepareColumn` (2165-2510) does for `m_dStateNode`, `m_dStateREdge`, `m_dExnerNode`,
`m_dDiffPREdge` and `m_dDiffDiffStateUniform` is that of VerticalDynamicsFEM.cpp; so is that of the uniform diffusion in `BuildF`
(2930-2975) and of the statements that write the solution back (1813-1851): the definitions of `Verif.Vdyn` stand for them.
LAPACK is a parameter.  There are no NaNs among the real numbers, so the check for them (1771-1787) never fires.
-/
import Verif.Vdyn.Implicit

namespace Verif.Schur

open Verif.Column Verif.Vdyn

variable (S : Setup) (G : Metric) (M : Memory) (x : Nat → ℝ)

/-! ### The residual -/

/-- `m_dXiDotNode`, VerticalDynamicsSchur.cpp:2381-2390. -/
noncomputable def xiDotNode (k : Nat) : ℝ :=
  let covUx := nodeState S M x 3 k * G.derivR k
  G.conXi k 0 * nodeState S M x 0 k + G.conXi k 1 * nodeState S M x 1 k + G.conXi k 2 * covUx

/-- `m_dXiDotREdge`, VerticalDynamicsSchur.cpp:2392-2404. -/
noncomputable def xiDotEdge (k : Nat) : ℝ :=
  if 1 ≤ k ∧ k < S.levels then
    let covUx := edgeState S M x 3 k * G.derivREdge k
    G.conXiEdge k 0 * edgeState S M x 0 k + G.conXiEdge k 1 * edgeState S M x 1 k + G.conXiEdge k 2 * covUx
  else 0

/-- The derivative of the flux of variable `c` on levels, VerticalDynamicsSchur.cpp:2551-2576 (density) and 2634-2659 (density
times potential temperature).  The fluxes at both ends of the column are never written and stay zero. -/
noncomputable def diffFlux (c : Nat) : Nat → ℝ :=
  if fluxOnLevels S then
    applyRow (if S.wOnEdge then S.diffNNZero else S.diffNN) fun k => G.jac k * nodeState S M x c k * xiDotNode S G M x k
  else applyRow S.diffEN fun k =>
    if 1 ≤ k ∧ k < S.levels then G.jacEdge k * edgeState S M x c k * xiDotEdge S G M x k else 0

/-- The residual of vertical velocity on interface `k` before diffusion, VerticalDynamicsSchur.cpp:2868-2892: vertical velocity
is in length per time here, not covariant. -/
noncomputable def forceEdge (k : Nat) : ℝ :=
  if 1 ≤ k ∧ k < S.levels then
    diffPEdge S M x k * edgeState S M x 2 k / edgeState S M x 4 k / G.derivREdge k + S.phys.g
  else 0

/-- `m_dUpwindWeights`, VerticalDynamicsSchur.cpp:2996-2999. -/
noncomputable def upwindWeight (a : Nat) : ℝ := |xiDotEdge S G M x ((a + 1) * perElement S)|

/-- Upwinding on levels, VerticalDynamicsSchur.cpp:3044-3057; vertical velocity is left out (3018-3021). -/
noncomputable def upwind (c k : Nat) : ℝ :=
  penaltyApply S.penalty (upwindWeight S G M x) (nodeState S M x c) (fun _ => 0) 1 1 k

/-- `BuildF` before the time derivative, VerticalDynamicsSchur.cpp:2515-3119, entry of variable `c` (2 density times potential
temperature, 3 vertical velocity, 4 density) at level or interface `k`: entries that no loop writes are zero, and so are those
of vertical velocity at the ends (3093-3100). -/
noncomputable def tendency (c k : Nat) : ℝ :=
  if c = 3 then
    (if k = 0 ∨ k = S.levels then 0 else forceEdge S G M x k - diffusion S M x 3 k)
  else if k < S.levels then
    diffFlux S G M x c k * (1 / G.jac k) - diffusion S M x c k - upwind S G M x c k
  else 0

/-- `BuildF`, VerticalDynamicsSchur.cpp:3122-3125: entry `i` of the column. -/
noncomputable def residual (i : Nat) : ℝ :=
  tendency S G M x (i % 3 + 2) (i / 3) + (x i - M.state i) * (1 / S.dt)

/-! ### The Jacobian -/

/-- Fluxes of density and of density times potential temperature on level `k`, VerticalDynamicsSchur.cpp:3427-3467. -/
noncomputable def fluxUpdates (k : Nat) : List Update :=
  (stencil S.diffEN k).flatMap fun m =>
    (if m ≠ 0 ∧ m ≠ S.levels then
      let c := (S.diffEN.row k).coeff m * G.jacEdge m * (1 / G.jac k) * G.conXiEdge m 2 * G.derivREdge m
      [upd 1 m 0 k (c * edgeState S M x 2 m), upd 1 m 2 k (c * edgeState S M x 4 m)]
    else []) ++
    (stencil S.interpNE m).flatMap fun n =>
      let c := (S.diffEN.row k).coeff m * G.jacEdge m * (1 / G.jac k) * (S.interpNE.row m).coeff n * xiDotEdge S G M x m
      [upd 2 n 2 k c, upd 0 n 0 k c]

/-- Pressure gradient on interface `k`, VerticalDynamicsSchur.cpp:3469-3508: the first coefficient is divided by
`m_dColumnDerivRNode[k][2]` (3476), of the level above the interface. -/
noncomputable def pressureUpdates (k : Nat) : List Update :=
  let a := edgeState S M x 2 k * S.phys.r / (G.derivR k * edgeState S M x 4 k * (S.phys.cp - S.phys.r))
  let b := 1 / G.derivREdge k / (edgeState S M x 4 k * edgeState S M x 4 k) * diffPEdge S M x k
  ((stencil S.diffNE k).map fun m =>
    upd 0 m 1 k (a * (S.diffNE.row k).coeff m * exnerNode S M x m / nodeState S M x 2 m)) ++
  (stencil S.interpNE k).flatMap fun n =>
    let c := b * (S.interpNE.row k).coeff n
    [upd 0 n 1 k (c * edgeState S M x 4 k), upd 2 n 1 k (-c * edgeState S M x 2 k)]

/-- `dSignWeight`, VerticalDynamicsSchur.cpp:3273-3280. -/
noncomputable def signWeight (k : Nat) : ℝ :=
  open Classical in if 0 < xiDotEdge S G M x k then 1 else if xiDotEdge S G M x k < 0 then -1 else 0

/-- Upwinding of variable `c` on levels at the edge below element `a`, VerticalDynamicsSchur.cpp:3269-3329. -/
noncomputable def upwindLevelUpdates (c a : Nat) : List Update :=
  let n := perElement S
  let sign := signWeight S G M x (a * n)
  let weight := |xiDotEdge S G M x (a * n)|
  let below := List.range' ((a - 1) * n) n
  let above := List.range' (a * n) n
  (below.flatMap fun k => (stencil S.penalty.left k).map fun l =>
    upd 1 (a * n) (c - 2) k (-(sign / G.derivREdge (a * n) * (S.penalty.left.row k).coeff l * nodeState S M x c l))) ++
  (above.flatMap fun k => (stencil S.penalty.right k).map fun l =>
    upd 1 (a * n) (c - 2) k (-(sign / G.derivREdge (a * n) * (S.penalty.right.row k).coeff l * nodeState S M x c l))) ++
  (below.flatMap fun k => (stencil S.penalty.left k).map fun l =>
    upd (c - 2) l (c - 2) k (-(weight * (S.penalty.left.row k).coeff l))) ++
  (above.flatMap fun k => (stencil S.penalty.right k).map fun l =>
    upd (c - 2) l (c - 2) k (-(weight * (S.penalty.right.row k).coeff l)))

/-- `BuildJacobianF_Diffusion`, VerticalDynamicsSchur.cpp:3130-3332; vertical velocity is left out (3216-3221). -/
noncomputable def upwindUpdates (c : Nat) : List Update :=
  (List.range' 1 (nElements S - 1)).flatMap (upwindLevelUpdates S G M x c)

/-- The identity, VerticalDynamicsSchur.cpp:3536-3541. -/
noncomputable def timeUpdates : List Update :=
  (List.range (S.levels + 1)).flatMap fun k => [upd 0 k 0 k (1 / S.dt), upd 1 k 1 k (1 / S.dt), upd 2 k 2 k (1 / S.dt)]

/-- `BuildJacobianF`, VerticalDynamicsSchur.cpp:3336-3554, for vertical velocity on interfaces (the boundary condition in
3543-3553 is for vertical velocity on levels). -/
noncomputable def jacobianUpdates : List Update :=
  (List.range S.levels).flatMap (fluxUpdates S G M x) ++
  (List.range' 1 (S.levels - 1)).flatMap (pressureUpdates S G M x) ++
  upwindUpdates S G M x 2 ++ upwindUpdates S G M x 4 ++ timeUpdates S

/-- What `BuildJacobianF` ends in, VerticalDynamicsSchur.cpp:3227-3229 and 3422-3425: `none` is an exception, for density times
potential temperature on interfaces and for vertical velocity on levels. -/
noncomputable def jacobian : Option (List Update) :=
  if S.pOnEdge = true then none
  else if S.wOnEdge = false then none
  else some (jacobianUpdates S G M x)

/-! ### Storage -/

/-- `m_nJacobianFOffD`, VerticalDynamicsSchur.cpp:171-199, and 203-214: `none` is an exception. -/
def offDiagonals : Option Nat :=
  if S.volumes then
    (if S.order ≤ 2 then some 4 else if S.order = 4 then some 7 else if S.order = 6 then some 10 else none)
  else none

/-- `m_nOffDiagonals`, VerticalDynamicsSchur.cpp:207. -/
def half : Nat := S.order / 2

/-- `m_nJacobianFSchurOffD`, VerticalDynamicsSchur.cpp:208. -/
def schurOffDiagonals : Nat := S.order + 1

/-- `MatFIx`, VerticalDynamicsSchur.h:148-159, for `o` off-diagonals and the width of VerticalDynamicsSchur.cpp:209; `row` is
the index of the equation, `col` that of the unknown. -/
def address (o row col : Nat) : Int := (o + row - col) + (2 * o + 1) * col

/-- `MatSIx`, VerticalDynamicsSchur.h:132-142, for `d` off-diagonals and the width of VerticalDynamicsSchur.cpp:210. -/
def addressS (d row col : Nat) : Int := (2 * d + row - col) + (3 * d + 1) * col

/-- `VecSIx`, VerticalDynamicsSchur.h:118-126; components are 0 for density times potential temperature and 1 for density. -/
def vecS (c k : Nat) : Nat := 2 * k + c

/-- `m_matJacobianF` after the statements `us`, from zero (VerticalDynamicsSchur.cpp:3409-3411). -/
noncomputable def store (o : Nat) (us : List Update) : Int → ℝ :=
  us.foldl (fun m u => Function.update m (address o u.row u.col) (m (address o u.row u.col) + u.value)) fun _ => 0

/-! ### The Schur complement -/

/-- A statement about the array of the Schur complement: `dDGSchur[addr] = value` or `dDGSchur[addr] -= value`. -/
structure Stmt where
  addr : Int
  copy : Bool
  value : ℝ

/-- One statement. -/
noncomputable def exec (m : Int → ℝ) (s : Stmt) : Int → ℝ :=
  Function.update m s.addr (if s.copy then s.value else m s.addr - s.value)

/-- `dDG[MatFIx(c0, k0, c1, k1)]`. -/
def get (o : Nat) (m : Int → ℝ) (c0 k0 c1 k1 : Nat) : ℝ := m (address o (vec c1 k1) (vec c0 k0))

/-- The loop `for (i = ibegin; i < iend; i++)`, VerticalDynamicsSchur.cpp:1591-1600; `N` is `m_nRElements`. -/
def edges (N k : Nat) : List Nat := List.range' (max k 1) (min (k + 2) N - max k 1)

/-- The loop `for (l = lbegin; l < lend; l++)`, VerticalDynamicsSchur.cpp:1614-1636; `h` is `m_nOffDiagonals`. -/
def window (N h i : Nat) : List Nat := List.range' (i - h) (min (i + h + 1) N - (i - h))

/-- The component of the column for a component of the Schur complement: `FPIx` for `SPIx`, `FRIx` for `SRIx`. -/
def full (c : Nat) : Nat := 2 * c

/-- The statements about `dDGSchur`, VerticalDynamicsSchur.cpp:1589-1662. -/
noncomputable def complement (N h o d : Nat) (dt : ℝ) (m : Int → ℝ) : List Stmt :=
  (List.range N).flatMap fun k => (edges N k).flatMap fun i =>
    (if i = max k 1 then (window N h i).flatMap fun l =>
      [⟨addressS d (vecS 0 k) (vecS 0 l), true, get o m (full 0) l (full 0) k⟩,
        ⟨addressS d (vecS 1 k) (vecS 0 l), true, get o m (full 0) l (full 1) k⟩,
        ⟨addressS d (vecS 0 k) (vecS 1 l), true, get o m (full 1) l (full 0) k⟩,
        ⟨addressS d (vecS 1 k) (vecS 1 l), true, get o m (full 1) l (full 1) k⟩]
    else []) ++
    (window N h i).flatMap fun l =>
      [⟨addressS d (vecS 0 k) (vecS 0 l), false, dt * get o m 1 i (full 0) k * get o m (full 0) l 1 i⟩,
        ⟨addressS d (vecS 1 k) (vecS 0 l), false, dt * get o m 1 i (full 1) k * get o m (full 0) l 1 i⟩,
        ⟨addressS d (vecS 0 k) (vecS 1 l), false, dt * get o m 1 i (full 0) k * get o m (full 1) l 1 i⟩,
        ⟨addressS d (vecS 1 k) (vecS 1 l), false, dt * get o m 1 i (full 1) k * get o m (full 1) l 1 i⟩]

/-- `m_matJacobianFSchur`, VerticalDynamicsSchur.cpp:1575-1662. -/
noncomputable def schurMatrix (N h o d : Nat) (dt : ℝ) (m : Int → ℝ) : Int → ℝ :=
  (complement N h o d dt m).foldl exec fun _ => 0

/-- `m_dSolnSchur` before the solver, VerticalDynamicsSchur.cpp:1582-1612, from the residual `f`. -/
noncomputable def schurRhs (N o : Nat) (dt : ℝ) (m : Int → ℝ) (f : Nat → ℝ) (j : Nat) : ℝ :=
  let k := j / 2
  let c := full (j % 2)
  (edges N k).foldl (fun s i => s - dt * get o m 1 i c k * f (vec 1 i)) (f (vec c k))

/-- `m_dSoln` after the solver, VerticalDynamicsSchur.cpp:1726-1760, from the residual `f` and `m_dSolnSchur` `z`. -/
noncomputable def backOut (N h o : Nat) (dt : ℝ) (m : Int → ℝ) (f z : Nat → ℝ) (j : Nat) : ℝ :=
  let k := j / 3
  if j % 3 = 1 then
    (if k = N then 0
    else if k = 0 then f (vec 1 k) * dt
    else (window N h k).foldl
      (fun s l => s - dt * get o m (full 0) l 1 k * z (vecS 0 l) - dt * get o m (full 1) l 1 k * z (vecS 1 l)) (f (vec 1 k) * dt))
  else if k < N then z (vecS (j % 3 / 2) k)
  else f j

/-- `m_dSoln` of a column, VerticalDynamicsSchur.cpp:1504-1792: `none` is an exception. -/
noncomputable def newtonStep (solve : BandSolver) (D : Data) : Option (Nat → ℝ) :=
  let M := setupColumn S D M
  match jacobian S G M M.state, offDiagonals S with
  | some us, some o =>
    let m := store o us
    let f := residual S G M M.state
    let d := schurOffDiagonals S
    (dgbsv solve (2 * S.levels) (3 * d + 1) d (schurMatrix S.levels (half S) o d S.dt m) (schurRhs S.levels o S.dt m f)).map
      fun z i => M.state i - backOut S.levels (half S) o S.dt m f z i
  | _, _ => none

/-- The update of the dynamics of one column, VerticalDynamicsSchur.cpp:1504-1851: `D` is the initial data, `U` the column of the
data to update. -/
noncomputable def implicitColumn (solve : BandSolver) (D : Data) (U : State) : Option State :=
  (newtonStep S G M solve D).map fun s => writeSoln S s U

end Verif.Schur
