import Mathlib.Algebra.BigOperators.Fin
import Mathlib.Analysis.Calculus.Deriv.Basic
import Verif.Metric.Model
import Verif.Horiz.Spec
import Verif.Sphere.Spec

/-!
# Vocabulary for heights and metric terms

The height of a terrain-following surface, lengths measured in coordinates whose third one is such a surface, and what
it is for stored numbers to be the inverse of those lengths and their volume factor.
-/

namespace Verif.Metric

open Real Verif.Horiz

/-- Two matrices of two rows are inverse to each other. -/
def Inverse2 (m n : Fin 2 → Fin 2 → ℝ) : Prop :=
  ∀ r c, ∑ s, m r s * n s c = if r = c then 1 else 0

/-- Two matrices of three rows are inverse to each other. -/
def Inverse3 (m n : Fin 3 → Fin 3 → ℝ) : Prop :=
  ∀ r c, ∑ s, m r s * n s c = if r = c then 1 else 0

/-- Determinant of a matrix of three rows. -/
def det3 (m : Fin 3 → Fin 3 → ℝ) : ℝ :=
  m 0 0 * (m 1 1 * m 2 2 - m 1 2 * m 2 1) - m 0 1 * (m 1 0 * m 2 2 - m 1 2 * m 2 0) +
    m 0 2 * (m 1 0 * m 2 1 - m 1 1 * m 2 0)

/-- Inner products of the coordinate directions when horizontal distances are measured by `h` at every height and the
height changes at the rates `z` along the three coordinates. -/
def lengths (h : Fin 2 → Fin 2 → ℝ) (z : Fin 3 → ℝ) : Fin 3 → Fin 3 → ℝ :=
  ![![h 0 0 + z 0 * z 0, h 0 1 + z 0 * z 1, z 0 * z 2],
    ![h 1 0 + z 1 * z 0, h 1 1 + z 1 * z 1, z 1 * z 2],
    ![z 2 * z 0, z 2 * z 1, z 2 * z 2]]

/-- The stored contravariant components of a level or interface as a matrix. -/
def Terms.con (t : Terms) : Fin 3 → Fin 3 → ℝ := ![t.conA, t.conB, t.conXi]

/-- The stored two-dimensional contravariant components as a matrix. -/
def Flat.con (f : Flat) : Fin 2 → Fin 2 → ℝ := ![f.conA, f.conB]

/-- The stored two-dimensional covariant components as a matrix. -/
def Flat.cov (f : Flat) : Fin 2 → Fin 2 → ℝ := ![f.covA, f.covB]

/-- The height on the cubed sphere above ground at `zs` of the surface with coordinate `eta`. -/
def sphereHeight (ztop zs eta : ℝ) : ℝ := zs + eta * (ztop - zs)

/-- The height on the Cartesian grid above ground at `zs` of the surface with coordinate `eta`. -/
noncomputable def planeHeight (ztop zs eta : ℝ) : ℝ :=
  ztop * eta + zs * ((1 - eta) * (cos (π * eta / 2) ^ 6 + eta * sin (π * eta / 2) / 4))

/-- Stored terms belong to a height `h zs eta` at ground height `zs`, ground slopes `za`, `zb` and coordinate `eta`: the
three stored derivatives are the rates of change of the height along the three coordinates. -/
def SlopesOf (h : ℝ → ℝ → ℝ) (zs za zb eta : ℝ) (t : Terms) : Prop :=
  (∀ (T : ℝ → ℝ) (s : ℝ), T s = zs → HasDerivAt T za s → HasDerivAt (fun s => h (T s) eta) (t.deriv 0) s) ∧
  (∀ (T : ℝ → ℝ) (s : ℝ), T s = zs → HasDerivAt T zb s → HasDerivAt (fun s => h (T s) eta) (t.deriv 1) s) ∧
  HasDerivAt (h zs) (t.deriv 2) eta

/-- Stored terms measure lengths and volumes: for horizontal lengths `h` and the stored derivatives of height, the
contravariant components are the inverse and the square of the volume factor is the determinant. -/
def Measures (h : Fin 2 → Fin 2 → ℝ) (t : Terms) : Prop :=
  Inverse3 t.con (lengths h t.deriv) ∧ t.jac * t.jac = det3 (lengths h t.deriv)

end Verif.Metric
