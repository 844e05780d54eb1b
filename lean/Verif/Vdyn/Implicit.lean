/-
Model of the implicit step of one column (src/atm/VerticalDynamicsFEM.cpp, `StepImplicit`): one step of Newton's method with the
band solver of LAPACK (src/base/LinearAlgebra.cpp, `LAPACK::DGBSV`).

Simplifications: as in `Model.lean` and `Jacobian.lean`; the configuration is the one compiled, `USE_DIRECTSOLVE` and
`USE_JACOBIAN_DIAGONAL`.  LAPACK is a parameter.  There are no NaNs among the real numbers, so the check for them
(VerticalDynamicsFEM.cpp:1452-1468) never fires.
-/
import Verif.Vdyn.Jacobian

namespace Verif.Vdyn

/-- LAPACK's solver for band matrices: number of equations, diagonals below and above, leading dimension of the array, array and
right hand side to the solution; `none` is a nonzero `INFO`. -/
abbrev BandSolver := Nat → Nat → Nat → (Int → ℝ) → (Nat → ℝ) → Option (Nat → ℝ)

/-- The prognostic variables of one column on nodes and interfaces, and the tracers; component first. -/
structure State where
  node : Nat → Nat → ℝ
  edge : Nat → Nat → ℝ
  tracer : Nat → Nat → ℝ

/-- `LAPACK::DGBSV`, LinearAlgebra.cpp:156-202, for an array of `rows` times `cols` and vectors with `rows` entries: `none` is an
exception or a nonzero `INFO`.  The check in LinearAlgebra.cpp:164-166 is about `GetRows()`, the number of equations. -/
def dgbsv (solve : BandSolver) (rows cols d : Nat) (m : Int → ℝ) (b : Nat → ℝ) : Option (Nat → ℝ) :=
  if rows < 2 * d + d + 1 then none else solve rows d cols m b

/-- The state written back, VerticalDynamicsFEM.cpp:1476-1516. -/
def writeSoln (S : Setup) (s : Nat → ℝ) (U : State) : State :=
  { U with
    node := fun c k =>
      if c = 2 ∧ S.pOnEdge = false ∧ k < S.levels then s (vec 0 k)
      else if c = 3 ∧ S.wOnEdge = false ∧ k < S.levels then s (vec 1 k)
      else if c = 4 ∧ k < S.levels then s (vec 2 k)
      else U.node c k
    edge := fun c k =>
      if c = 2 ∧ S.pOnEdge = true ∧ k ≤ S.levels then s (vec 0 k)
      else if c = 3 ∧ S.wOnEdge = true ∧ k ≤ S.levels then s (vec 1 k)
      else U.edge c k }

/-- `m_dSoln` of a column, VerticalDynamicsFEM.cpp:1329-1473: `none` is an exception. -/
noncomputable def newtonStep (solve : BandSolver) (S : Setup) (G : Metric) (D : Data) (M : Memory) : Option (Nat → ℝ) :=
  let M := setupColumn S D M
  match jacobian S G M M.state, offDiagonals S with
  | some us, some d =>
    (dgbsv solve (3 * (S.levels + 1)) (3 * d + 1) d (store d us) (residual S G M M.state)).map fun s i => M.state i - s i
  | _, _ => none

/-- The update of the dynamics of one column, VerticalDynamicsFEM.cpp:1329-1516: `D` is the initial data, `U` the column of the
data to update. -/
noncomputable def implicitColumn (solve : BandSolver) (S : Setup) (G : Metric) (D : Data) (M : Memory) (U : State) : Option State :=
  (newtonStep solve S G D M).map fun s => writeSoln S s U

end Verif.Vdyn
