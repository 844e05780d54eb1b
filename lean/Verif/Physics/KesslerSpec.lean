import Verif.Physics.Kessler
import Mathlib.Algebra.BigOperators.Ring.Finset
import Mathlib.Algebra.Order.BigOperators.Group.Finset

/-!
# Water and heat of a column

The column consists of layers: each level but the highest belongs to the layer between it and the next one, the highest
to one of half the thickness of the layer below.
-/

namespace Verif.Physics

open Real

/-- The thickness of the layer of level `k` of `n`, with levels at the heights `z`. -/
noncomputable def thickness (n : Nat) (z : Nat → ℝ) (k : Nat) : ℝ :=
  if k + 1 < n then z (k + 1) - z k else (z k - z (k - 1)) / 2

/-- All the water at a level: vapour, cloud water and rain, per mass of dry air. -/
def Wet.water (w : Wet) (k : Nat) : ℝ := w.qv k + w.qc k + w.qr k

/-- The water of a column as the depth of liquid water, of 1000 kg per cubic metre: a sum over the layers. -/
noncomputable def depth (n : Nat) (rho z : Nat → ℝ) (w : Wet) : ℝ :=
  ∑ k ∈ Finset.range n, rho k / 1000 * thickness n z k * w.water k

/-- Air in a column: at least two levels with increasing heights, positive density and Exner function, a positive time
step. -/
structure Air.Proper (F : Air) : Prop where
  levels : 2 ≤ F.nz
  rho : ∀ k < F.nz, 0 < F.rho k
  pk : ∀ k < F.nz, 0 < F.pk k
  z : ∀ k, k + 1 < F.nz → F.z k < F.z (k + 1)
  dt : 0 < F.dt

/-- No amount of water is negative. -/
structure Wet.Nonneg (w : Wet) (n : Nat) : Prop where
  qv : ∀ k < n, 0 ≤ w.qv k
  qc : ∀ k < n, 0 ≤ w.qc k
  qr : ∀ k < n, 0 ≤ w.qr k

/-- The speed at which rain falls, in air of density `rho`, with density `rho0` at the lowest level. -/
noncomputable def fall (rho0 rho qr : ℝ) : ℝ := 36.34 * (qr * (0.001 * rho)) ^ (0.1364 : ℝ) * sqrt (rho0 / rho)

/-- In one time step rain falls no further than the layer it is in is thick, and no further than four fifths of it where
it is not the highest. -/
def Air.Slow (F : Air) (w : Wet) : Prop :=
  (∀ k, k + 1 < F.nz → F.dt * fall (F.rho 0) (F.rho k) (w.qr k) ≤ 0.8 * (F.z (k + 1) - F.z k)) ∧
    F.dt * fall (F.rho 0) (F.rho (F.nz - 1)) (w.qr (F.nz - 1)) ≤ (F.z (F.nz - 1) - F.z (F.nz - 1 - 1)) / 2

/-- The fields of a column. -/
structure SameColumn (s t : Fields) (i j : Nat) : Prop where
  state : ∀ c k, s.state c i j k = t.state c i j k
  tracer : ∀ c k, s.tracer c i j k = t.tracer c i j k
  fallen : s.fallen i j = t.fallen i j

/-- A column of the interior. -/
def Rain.Inside (P : Rain) (i j : Nat) : Prop := P.aBegin ≤ i ∧ i < P.aEnd ∧ P.bBegin ≤ j ∧ j < P.bEnd

/-- The density of the dry air at a node. -/
def Fields.dry (s : Fields) (i j k : Nat) : ℝ :=
  s.state 4 i j k - (s.tracer 0 i j k + s.tracer 1 i j k + s.tracer 2 i j k)

/-- The depth of water in a column: the densities of water in its layers. -/
noncomputable def Fields.depth (s : Fields) (P : Rain) (i j : Nat) : ℝ :=
  ∑ k ∈ Finset.range P.levels, thickness P.levels (P.height i j) k *
    ((s.tracer 0 i j k + s.tracer 1 i j k + s.tracer 2 i j k) / 1000)

end Verif.Physics
