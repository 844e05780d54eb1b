/-
Vocabulary for the update of tracers: the divergence of vertical fluxes, upwinding, and the equations of a step.
-/
import Verif.Vdyn.ImplicitSpec
import Verif.Vdyn.Tracer

namespace Verif.Vdyn

open Verif.Column

/-- The divergence of the flux of `q` with the vertical wind `xi` on level `k`. -/
noncomputable def divergence (S : Setup) (G : Metric) (xi q : Nat → ℝ) (k : Nat) : ℝ :=
  applyRow S.diffEN (fun m => G.jacEdge m * (applyRow S.interpNE q m * xi m)) k / G.jac k

/-- The penalty of the jumps of `q` at element edges, with the weights `v` there. -/
noncomputable def smoothing (S : Setup) (v q : Nat → ℝ) (k : Nat) : ℝ :=
  penaltyApply S.penalty (fun a => v ((a + 1) * S.order)) q (fun _ => 0) 1 1 k

/-- The wind of the data of a column. -/
noncomputable def windBefore (S : Setup) (G : Metric) (D : Data) : Nat → ℝ := verticalWind S G (asColumn D (unknowns D.node D.edge))

/-- The wind of a column with the vertical velocity of the state `V` and the horizontal velocity of the data. -/
noncomputable def windAfter (S : Setup) (G : Metric) (D : Data) (V : State) : Nat → ℝ :=
  verticalWind S G (asColumn D (unknowns V.node V.edge))

/-- The implicit step changes the tracer `q` by `dq`: transport of `q` with the wind `xi1` after the step and of `dq` with the wind
`xi0` before it, less the penalties of the jumps. -/
def ImplicitStep (S : Setup) (G : Metric) (xi0 xi1 q dq : Nat → ℝ) (k : Nat) : Prop :=
  dq k / S.dt + divergence S G xi1 q k + divergence S G xi0 dq k - smoothing S (fun m => |xi0 m|) q k -
    smoothing S (fun m => |xi0 m|) dq k - smoothing S (fun m => sgn (xi0 m) * (xi1 m - xi0 m)) q k = 0

/-- No tracer but zero is left in place by the linear part of the implicit step. -/
def RegularTracers (S : Setup) (G : Metric) (xi0 : Nat → ℝ) : Prop :=
  ∀ y : Nat → ℝ, (∀ k < S.levels, y k / S.dt + divergence S G xi0 y k - smoothing S (fun m => |xi0 m|) y k = 0) →
    ∀ k < S.levels, y k = 0

/-- The flux of the tracer `q` by diffusion of its mixing ratio, less that of the reference, through interface `k`. -/
noncomputable def mixing (S : Setup) (D : Data) (q ref : Nat → ℝ) (k : Nat) : ℝ :=
  if S.uniform = true ∧ 1 ≤ k ∧ k < S.levels then
    S.nuScalar * applyRow S.interpNE (D.node 4) k * applyRow S.diffNE (fun j => q j / D.node 4 j - ref j / D.refNode 4 j) k
  else 0

/-- The explicit step changes the tracer `q` by `dq`. -/
def ExplicitStep (S : Setup) (G : Metric) (D : Data) (q ref dq : Nat → ℝ) (k : Nat) : Prop :=
  dq k / S.dt + divergence S G (windBefore S G D) q k - applyRow S.diffEN (mixing S D q ref) k / G.jac k -
    smoothing S (fun m => |windBefore S G D m|) q k = 0

end Verif.Vdyn
