/-
Vocabulary of C139: the equations of a tracer of a column of method v2.
-/
import Verif.VertV2.ColumnSpec
import Verif.Vdyn.TracerSpec
import Verif.Schur.TracerSpec

namespace Verif.ColumnV2

open Verif.Column Verif.Vdyn

/-- The wind through interfaces, of the data of a column; vertical velocity is in length per time. -/
noncomputable def windOld (S : Setup) (G : Metric) (D : Data) : Nat → ℝ :=
  verticalWind S (physical G) (asColumn D (unknowns D.node D.edge))

/-- The wind through interfaces with the vertical velocity of the state `V` and the horizontal velocity of the data. -/
noncomputable def windNew (S : Setup) (G : Metric) (D : Data) (V : Vdyn.State) : Nat → ℝ :=
  verticalWind S (physical G) (asColumn D (unknowns V.node V.edge))

/-- The implicit step changes the tracer `q` by `dq`: transport of `q` with the wind `xi1` after the step and of `dq` with the wind
`xi0` before it, the latter with volume elements `v` on interfaces. -/
def TracerStep (S : Setup) (G : Metric) (v xi0 xi1 q dq : Nat → ℝ) (k : Nat) : Prop :=
  dq k / S.dt + Schur.carried S G G.jacEdge xi1 q k + Schur.carried S G v xi0 dq k = 0

/-- No change of a tracer but none is left in place by the linear part of the implicit step. -/
def RegularTracers (S : Setup) (G : Metric) (v xi0 : Nat → ℝ) : Prop :=
  ∀ y : Nat → ℝ, (∀ k < S.levels, y k / S.dt + Schur.carried S G v xi0 y k = 0) → ∀ k < S.levels, y k = 0

/-- The explicit step changes the tracer `q` with reference `ref` by `dq`: transport with the wind of the data, and diffusion of the
mixing ratio. -/
def ExplicitTracer (S : Setup) (G : Metric) (D : Data) (q ref dq : Nat → ℝ) (k : Nat) : Prop :=
  dq k / S.dt + Schur.carried S G G.jacEdge (windOld S G D) q k - applyRow S.diffEN (mixing S D q ref) k / G.jac k = 0

end Verif.ColumnV2
