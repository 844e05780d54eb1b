/-
Vocabulary of C133: what is in the array of volume elements, and the equations of a tracer.
-/
import Verif.Schur.Spec
import Verif.Schur.Tracer

namespace Verif.Schur

open Verif.Column Verif.Vdyn Finset

/-- The column is in its patch, and its volume elements on interfaces are those of the array: `[iA][iB][m]`. -/
def Site.Holds (P : Site) (S : Setup) (G : Metric) : Prop :=
  P.iA < P.a ∧ P.iB < P.b ∧ ∀ m ≤ S.levels, P.data ((P.iA * P.b + P.iB) * (S.levels + 1) + m) = G.jacEdge m

/-- The volume element in the place `[m][iA][iB]` of the array, where those of interface `iB` of column `(m, iA)` belong. -/
def Site.other (P : Site) (S : Setup) (m : Nat) : ℝ := P.data ((m * P.b + P.iA) * (S.levels + 1) + P.iB)

/-- The place `[levels][iA][iB]` is behind the end of the array. -/
def Site.Beyond (P : Site) (S : Setup) : Prop := P.a * P.b * (S.levels + 1) ≤ (S.levels * P.b + P.iA) * (S.levels + 1) + P.iB

/-- Divergence on level `k` of the flux of `q` through interfaces with volume elements `v` and wind `xi`. -/
noncomputable def carried (S : Setup) (G : Metric) (v xi q : Nat → ℝ) (k : Nat) : ℝ :=
  applyRow S.diffEN (fun m => v m * (applyRow S.interpNE q m * xi m)) k / G.jac k

/-- Upwinding of `q` on level `k` with weights `v` of interfaces. -/
noncomputable def jumps (S : Setup) (v q : Nat → ℝ) (k : Nat) : ℝ := penaltyApply S.penalty (fun a => v (a + 1)) q (fun _ => 0) 1 1 k

/-- The wind through interfaces after the step, with vertical velocity `w`. -/
noncomputable def windAfter (S : Setup) (G : Metric) (D : Data) (w : Nat → ℝ) : Nat → ℝ := wind S G { column D with w := w }

/-- An implicit step to vertical velocity `w` changes the tracer `q` by `dq`: transport of `q` with the wind after the step and of `dq`
with the wind before it, the latter with volume elements `v`, less the upwinding of both, the weights of `q` being those for the
wind after the step. -/
def TracerStep (S : Setup) (G : Metric) (D : Data) (v w q dq : Nat → ℝ) (k : Nat) : Prop :=
  dq k / S.dt + carried S G G.jacEdge (windAfter S G D w) q k + carried S G v (wind S G (column D)) dq k -
    jumps S (fun m => |wind S G (column D) m|) q k - jumps S (fun m => |wind S G (column D) m|) dq k -
    jumps S (fun m => sgn (wind S G (column D) m) * (w m - D.edge 3 m) / G.derivREdge m) q k = 0

/-- A change of a tracer other than none that the left hand side does not see. -/
def SingularTracers (S : Setup) (G : Metric) (D : Data) (v : Nat → ℝ) : Prop :=
  ∃ y : Nat → ℝ, (∀ k < S.levels, y k / S.dt + carried S G v (wind S G (column D)) y k -
    jumps S (fun m => |wind S G (column D) m|) y k = 0) ∧ ∃ k < S.levels, y k ≠ 0

end Verif.Schur
