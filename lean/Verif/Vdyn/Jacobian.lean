/-
Model of the Jacobian of the vertical equations (src/atm/VerticalDynamicsFEM.cpp): `BuildJacobianF`,
`BuildJacobianF_LOR_RhoTheta_Pi`, `BuildJacobianF_Diffusion`, and of its band storage (src/atm/VerticalDynamicsFEM.h).

Simplifications: as in `Model.lean`.  The matrix is built by statements `dDG[…] += v`; the model lists them in order as triples of
equation, unknown and value, and `store` executes them on the array.
-/
import Verif.Vdyn.Model

namespace Verif.Vdyn

open Verif.Column

/-- One statement `dDG[MatFIx(c0, k0, c1, k1)] += v`: `row` is the equation (c1, k1), `col` the unknown (c0, k0). -/
structure Update where
  row : Nat
  col : Nat
  value : ℝ

/-- The statement for unknown (c0, k0) and equation (c1, k1). -/
def upd (c0 k0 c1 k1 : Nat) (v : ℝ) : Update := ⟨vec c1 k1, vec c0 k0, v⟩

/-- The loop `for (n = iBegin[k]; n < iEnd[k]; n++)`. -/
def stencil (A : Op) (k : Nat) : List Nat := List.range' (A.row k).ibegin ((A.row k).iend - (A.row k).ibegin)

variable (S : Setup) (G : Metric) (M : Memory) (x : Nat → ℝ)

/-- Fluxes of density and of density times potential temperature on level `k`, VerticalDynamicsFEM.cpp:3068-3105. -/
noncomputable def fluxUpdates (k : Nat) : List Update :=
  (stencil S.diffEN k).flatMap fun m =>
    (if m ≠ 0 ∧ m ≠ S.levels then
      let c := (S.diffEN.row k).coeff m * G.jacEdge m * (1 / G.jac k) * G.conXiEdge m 2
      [upd 1 m 0 k (c * edgeState S M x 2 m), upd 1 m 2 k (c * edgeState S M x 4 m)]
    else []) ++
    (stencil S.interpNE m).flatMap fun n =>
      let c := (S.diffEN.row k).coeff m * G.jacEdge m * (1 / G.jac k) * (S.interpNE.row m).coeff n * xiDotEdge S G M x m
      [upd 2 n 2 k c, upd 0 n 0 k c]

/-- Pressure gradient on interface `k`, VerticalDynamicsFEM.cpp:3108-3148; `GetCv` is PhysicalConstants.h:187-189. -/
noncomputable def pressureUpdates (k : Nat) : List Update :=
  let a := edgeState S M x 2 k * S.phys.r / (edgeState S M x 4 k * (S.phys.cp - S.phys.r))
  let b := 1 / (edgeState S M x 4 k * edgeState S M x 4 k) * diffPEdge S M x k
  ((stencil S.diffNE k).map fun m =>
    upd 0 m 1 k (a * (S.diffNE.row k).coeff m * exnerNode S M x m / nodeState S M x 2 m)) ++
  (stencil S.interpNE k).flatMap fun n =>
    let c := b * (S.interpNE.row k).coeff n
    [upd 0 n 1 k (c * edgeState S M x 4 k), upd 2 n 1 k (-c * edgeState S M x 2 k)]

/-- Kinetic energy on interface `k`, VerticalDynamicsFEM.cpp:3152-3167. -/
noncomputable def clarkUpdates (k : Nat) : List Update :=
  (stencil S.diffNE k).flatMap fun l =>
    (stencil S.interpEN l).map fun m =>
      upd 1 m 1 k ((S.interpEN.row l).coeff m * (S.diffNE.row k).coeff l * xiDotNode S G M x l)

/-- `dSignWeight`, VerticalDynamicsFEM.cpp:2884-2893 and 2918-2925. -/
noncomputable def signWeight (k : Nat) : ℝ :=
  open Classical in
  if 0 < xiDotEdge S G M x k then 1 * G.conXiEdge k 2
  else if xiDotEdge S G M x k < 0 then -1 * G.conXiEdge k 2 else 0

/-- Upwinding of variable `c` on interfaces, VerticalDynamicsFEM.cpp:2879-2910. -/
noncomputable def upwindEdgeUpdates (c : Nat) : List Update :=
  let coeff := 1 / 2 * (1 / (S.levels : ℝ))
  ((List.range (S.levels + 1)).map fun k =>
    upd 1 k (c - 2) k (-(coeff * signWeight S G M x k * applyRow S.diffDiffEE (edgeState S M x c) k))) ++
  (List.range (S.levels + 1)).flatMap fun k => (stencil S.diffDiffEE k).map fun n =>
    upd (c - 2) n (c - 2) k (-(coeff * |xiDotEdge S G M x k| * (S.diffDiffEE.row k).coeff n))

/-- The number of finite elements, VerticalDynamicsFEM.cpp:2804-2812. -/
def nElements : Nat := if S.volumes then S.levels else S.levels / S.order

/-- Upwinding of variable `c` on levels at the edge below element `a`, VerticalDynamicsFEM.cpp:2915-2968. -/
noncomputable def upwindLevelUpdates (c a : Nat) : List Update :=
  let n := perElement S
  let sign := signWeight S G M x (a * n)
  let weight := |xiDotEdge S G M x (a * n)|
  let below := List.range' ((a - 1) * n) n
  let above := List.range' (a * n) n
  (below.flatMap fun k => (stencil S.penalty.left k).map fun l =>
    upd 1 (a * n) (c - 2) k (-(sign * (S.penalty.left.row k).coeff l * nodeState S M x c l))) ++
  (above.flatMap fun k => (stencil S.penalty.right k).map fun l =>
    upd 1 (a * n) (c - 2) k (-(sign * (S.penalty.right.row k).coeff l * nodeState S M x c l))) ++
  (below.flatMap fun k => (stencil S.penalty.left k).map fun l =>
    upd (c - 2) l (c - 2) k (-(weight * (S.penalty.left.row k).coeff l))) ++
  (above.flatMap fun k => (stencil S.penalty.right k).map fun l =>
    upd (c - 2) l (c - 2) k (-(weight * (S.penalty.right.row k).coeff l)))

/-- `BuildJacobianF_Diffusion`, VerticalDynamicsFEM.cpp:2784-2973. -/
noncomputable def upwindUpdates (c : Nat) : List Update :=
  if onEdge S c then upwindEdgeUpdates S G M x c
  else (List.range' 1 (nElements S - 1)).flatMap (upwindLevelUpdates S G M x c)

/-- The identity, VerticalDynamicsFEM.cpp:3173-3177. -/
noncomputable def timeUpdates : List Update :=
  (List.range (S.levels + 1)).flatMap fun k => [upd 0 k 0 k (1 / S.dt), upd 1 k 1 k (1 / S.dt), upd 2 k 2 k (1 / S.dt)]

/-- `BuildJacobianF_LOR_RhoTheta_Pi`, VerticalDynamicsFEM.cpp:2977-3187, for vertical velocity on interfaces. -/
noncomputable def jacobianUpdates : List Update :=
  (List.range S.levels).flatMap (fluxUpdates S G M x) ++
  (List.range' 1 (S.levels - 1)).flatMap (pressureUpdates S M x) ++
  (List.range' 1 (S.levels - 1)).flatMap (clarkUpdates S G M x) ++
  upwindUpdates S G M x 2 ++ upwindUpdates S G M x 3 ++ upwindUpdates S G M x 4 ++ timeUpdates S

/-- `BuildJacobianF`, VerticalDynamicsFEM.cpp:3191-3766 with 2870-2872, 3291-3293 and 3395-3398: `none` is an exception, for
density times potential temperature on interfaces and for vertical velocity on levels. -/
noncomputable def jacobian : Option (List Update) :=
  if S.pOnEdge = true then none
  else if S.wOnEdge = false then none
  else some (jacobianUpdates S G M x)

/-! ### Storage -/

/-- `m_nJacobianFOffD`, VerticalDynamicsFEM.cpp:166-206: `none` is an exception. -/
def offDiagonals : Option Nat :=
  if S.volumes then
    (if S.order ≤ 2 then some 4 else if S.order = 4 then some 7 else if S.order = 6 then some 10 else none)
  else if S.order = 1 then some 4
  else if S.order = 2 then some 9
  else if S.order = 3 then some 15
  else if S.order = 4 then some 22
  else if S.order = 5 then some 30
  else none

/-- `MatFIx`, VerticalDynamicsFEM.h:110-120, for `d` off-diagonals; the width of a column is VerticalDynamicsFEM.cpp:209. -/
def address (d row col : Nat) : Int := (2 * d + row - col) + (3 * d + 1) * col

/-- The array after the statements `us`, from zero (VerticalDynamicsFEM.cpp:3047-3054). -/
noncomputable def store (d : Nat) (us : List Update) : Int → ℝ :=
  us.foldl (fun m u => Function.update m (address d u.row u.col) (m (address d u.row u.col) + u.value)) fun _ => 0

end Verif.Vdyn
