import Mathlib.Analysis.SpecialFunctions.Trigonometric.Basic
import Mathlib.Analysis.SpecialFunctions.Trigonometric.Deriv

/-!
# What the chemistry of chlorine is

Molecules of chlorine are split by sunlight, and atoms of chlorine recombine to molecules.
-/

namespace Verif.Physics

open Real

/-- Amounts of atoms and of molecules that react for all times from zero, with `k1` the rate at which molecules are
split and `k2` the rate at which pairs of atoms recombine. -/
structure Reacts (k1 k2 : ℝ) (cl cl2 : ℝ → ℝ) : Prop where
  atoms : ∀ t, 0 ≤ t → HasDerivAt cl (2 * (k1 * cl2 t) - 2 * (k2 * cl t ^ 2)) t
  molecules : ∀ t, 0 ≤ t → HasDerivAt cl2 (k2 * cl t ^ 2 - k1 * cl2 t) t

/-- The direction of a place on the unit sphere. -/
noncomputable def direction (lat lon : ℝ) : ℝ × ℝ × ℝ := (cos lat * cos lon, cos lat * sin lon, sin lat)

/-- The cosine of the angle between two directions. -/
def cosine (p q : ℝ × ℝ × ℝ) : ℝ := p.1 * q.1 + p.2.1 * q.2.1 + p.2.2 * q.2.2

/-- The sun is over 20 degrees north, 300 degrees east. -/
noncomputable def sun : ℝ × ℝ × ℝ := direction (Real.pi / 9) (5 * Real.pi / 3)

end Verif.Physics
